import Verif.Proofs.Codegen.Check

/-! Fields, recursion and initial values of generated files. -/

namespace Asn1go.CG

open Spec Relation

variable {u : Casing} {l : List MAssignment} {d : Int} {r : Str}

/-! ### Fields -/

/-- A SEQUENCE or SET inside `t` with the fields `fs`. -/
def HasFields (u : Casing) (l : List MAssignment) (d : Int) (r : Str) (t : MTy) (fs : List GoField) : Prop :=
  ∃ a b, (Inside l t (.sequence a b) ∨ Inside l t (.set a b)) ∧ FieldsOf u l d r (members (a ++ b)) fs

theorem HasFields.mono {t t' : MTy} {fs : List GoField} (h : HasFields u l d r t fs) (hi : ∀ x, Inside l t x → Inside l t' x) :
    HasFields u l d r t' fs := by
  obtain ⟨a, b, h1 | h1, h2⟩ := h
  · exact ⟨a, b, .inl (hi _ h1), h2⟩
  · exact ⟨a, b, .inr (hi _ h1), h2⟩

theorem within_ident {n : Str} {fs : List GoField} : ¬ Within (.ident n) (.struct fs) := fun h => by cases h
theorem within_star {e : GoExpr} {fs : List GoField} : ¬ Within (.star e) (.struct fs) := fun h => by cases h
theorem within_iface {fs : List GoField} : ¬ Within .iface (.struct fs) := fun h => by cases h

mutual

/-- Every struct in a translated type is for a SEQUENCE or SET in the type. -/
theorem within_struct {t : MTy} {e : GoExpr} {gs : List GoField} : GoTypeOf u l d r t e → Within e (.struct gs) → HasFields u l d r t gs
  | .boolean, h => absurd h within_ident
  | .int64 _ _, h => absurd h within_ident
  | .bigInt _ _, h => absurd h within_star
  | .real, h => absurd h within_ident
  | .characterString, h => absurd h within_ident
  | .restrictedString _, h => absurd h within_ident
  | .octetString, h => by cases h with | array _ _ h => exact absurd h within_ident
  | .bitString _, h => absurd h within_ident
  | .objectIdentifier, h => absurd h within_ident
  | .enumerated _ _, h => absurd h within_ident
  | .any _, h => absurd h within_iface
  | .sequence a b fs hf, h => by
    cases h with
    | here => exact ⟨a, b, .inl (.here _), hf⟩
    | field n e _ tag _ hm hw =>
      obtain ⟨m, hm, h⟩ := within_field hf hm hw
      exact h.mono fun c hc => .sequence _ _ m _ hm hc
  | .set a b fs hf, h => by
    cases h with
    | here => exact ⟨a, b, .inr (.here _), hf⟩
    | field n e _ tag _ hm hw =>
      obtain ⟨m, hm, h⟩ := within_field hf hm hw
      exact h.mono fun c hc => .set _ _ m _ hm hc
  | .sequenceOf t e ht, h => by
    cases h with
    | array _ _ h => exact (within_struct ht h).mono fun c hc => .sequenceOf _ _ hc
  | .setOf t e ht, h => by
    cases h with
    | array _ _ h => exact (within_struct ht h).mono fun c hc => .setOf _ _ hc
  | .tagged g t k b e ht, h => (within_struct ht h).mono fun c hc => .tagged _ _ _ _ _ hc
  | .constrained t c e ht, h => (within_struct ht h).mono fun c hc => .constrained _ _ _ hc
  | .time _ _ _ _ _, h => absurd h within_ident
  | .bits _ _ _ _ _ _ _, h => absurd h within_ident
  | .ref _ _ _ _ _ _, h => absurd h within_ident
  | .rawChoice _ _ _, h => absurd h within_ident
  | .onlyChoice n t ext e h1 ht, h => (within_struct ht h).mono fun c hc => .choice _ _ _ _ h1 hc
  | .choice _ _ _ _, h => absurd h within_iface

theorem within_field {xs : List Member} {fs gs : List GoField} {n : Str} {e : GoExpr} {tag : Option Str} : FieldsOf u l d r xs fs →
    GoField.mk n e tag ∈ fs → Within e (.struct gs) → ∃ m ∈ xs, HasFields u l d r m.type gs
  | .nil, hm, _ => by simp at hm
  | .cons m ms e' tag' fs h1 _ h3, hm, hw => by
    by_cases he : GoField.mk n e tag ∈ fs
    · obtain ⟨y, hy, h⟩ := within_field h3 he hw
      exact ⟨y, by simp [hy], h⟩
    · have : e = e' := by
        rcases List.mem_cons.1 hm with h | h
        · cases h
          rfl
        · exact absurd h he
      exact ⟨m, by simp, within_struct h1 (this ▸ hw)⟩

end

theorem fieldsOf_names : ∀ {xs : List Member} {fs : List GoField}, FieldsOf u l d r xs fs → fs.map fieldName = xs.map fun x => goifyName u x.name
  | _, _, .nil => rfl
  | _, _, .cons _ _ _ _ _ _ _ h => by rw [List.map_cons, List.map_cons, fieldsOf_names h]; rfl

theorem fields_distinct {t : MTy} {e : GoExpr} {fs : List GoField} (h : GoTypeOf u l d r t e) (hw : Within e (.struct fs)) (hm : MembersNamed u l t) :
    (fs.map fieldName).Nodup := by
  obtain ⟨a, b, hi, hf⟩ := within_struct h hw
  obtain ⟨h1, h2⟩ := hm a b hi
  rw [fieldsOf_names hf, show ((members (a ++ b)).map fun x => goifyName u x.name) = ((members (a ++ b)).map Member.name).map (goifyName u) by
    simp [Function.comp_def]]
  refine List.Nodup.map_on (fun x hx y hy hxy => ?_) h1
  obtain ⟨x, hx', rfl⟩ := List.mem_map.1 hx
  obtain ⟨y, hy', rfl⟩ := List.mem_map.1 hy
  exact goify_lower_inj (h2 x hx') (h2 y hy') hxy

/-- The types of declarations are translations, names, or names of named types. -/
theorem decl_types {as : List MAssignment} {ds : List GoDecl} (h : DeclsFor u l d r as ds) :
    (∀ specs s, GoDecl.type specs ∈ ds → s ∈ specs → (∃ n t, .type n t ∈ as ∧ GoTypeOf u l d r t s.type) ∨ ∃ n, s.type = .ident n) ∧
    (∀ specs s, GoDecl.var specs ∈ ds → s ∈ specs → (∃ n t v, .value n t v ∈ as ∧ GoTypeOf u l d r t s.type) ∨ ∃ n, s.type = .ident n) := by
  induction h with
  | done => simp
  | type n t as dc v ds h1 h2 h3 ih =>
    refine ⟨fun specs s hd hs => ?_, fun specs s hd hs => ?_⟩
    · rcases List.mem_cons.1 hd with rfl | hd
      · cases h1 with
        | struct fs _ he => simp only [List.mem_singleton] at hs; subst hs; exact .inl ⟨n, t, by simp, he⟩
        | «alias» e _ he _ => simp only [List.mem_singleton] at hs; subst hs; exact .inl ⟨n, t, by simp, he⟩
        | set e _ he =>
          simp only [List.mem_cons, List.not_mem_nil, or_false] at hs
          rcases hs with rfl | rfl
          · exact .inl ⟨n, t, by simp, he⟩
          · exact .inr ⟨_, rfl⟩
      · rcases List.mem_append.1 hd with hd | hd
        · cases h2 with
          | none _ => simp at hd
          | vars nums specs' _ _ _ => simp at hd
        · rcases ih.1 specs s hd hs with ⟨n, t, hm, h⟩ | h
          · exact .inl ⟨n, t, by simp [hm], h⟩
          · exact .inr h
    · rcases List.mem_cons.1 hd with rfl | hd
      · cases h1
      · rcases List.mem_append.1 hd with hd | hd
        · cases h2 with
          | none _ => simp at hd
          | vars nums specs' _ _ hf =>
            simp only [List.mem_singleton, GoDecl.var.injEq] at hd
            subst hd
            obtain ⟨k, _, hk⟩ := forall2_right hf hs
            exact .inr ⟨_, hk.type⟩
        · rcases ih.2 specs s hd hs with ⟨n, t, v, hm, h⟩ | h
          · exact .inl ⟨n, t, v, by simp [hm], h⟩
          · exact .inr h
  | value n t v as ty e ds h1 h2 h3 ih =>
    refine ⟨fun specs s hd hs => ?_, fun specs s hd hs => ?_⟩
    · rcases ih.1 specs s (by simpa using hd) hs with ⟨n, t, hm, h⟩ | h
      · exact .inl ⟨n, t, by simp [hm], h⟩
      · exact .inr h
    · rcases List.mem_cons.1 hd with hd | hd
      · cases hd
        simp only [List.mem_singleton] at hs
        subst hs
        exact .inl ⟨n, t, v, by simp, h2⟩
      · rcases ih.2 specs s hd hs with ⟨n, t, v, hm, h⟩ | h
        · exact .inl ⟨n, t, v, by simp [hm], h⟩
        · exact .inr h
  | skip n t v as ds _ _ ih =>
    refine ⟨fun specs s hd hs => ?_, fun specs s hd hs => ?_⟩
    · rcases ih.1 specs s hd hs with ⟨n, t, hm, h⟩ | h
      · exact .inl ⟨n, t, by simp [hm], h⟩
      · exact .inr h
    · rcases ih.2 specs s hd hs with ⟨n, t, v, hm, h⟩ | h
      · exact .inl ⟨n, t, v, by simp [hm], h⟩
      · exact .inr h
  | nil as ds _ ih =>
    refine ⟨fun specs s hd hs => ?_, fun specs s hd hs => ?_⟩
    · rcases ih.1 specs s hd hs with ⟨n, t, hm, h⟩ | h
      · exact .inl ⟨n, t, by simp [hm], h⟩
      · exact .inr h
    · rcases ih.2 specs s hd hs with ⟨n, t, v, hm, h⟩ | h
      · exact .inl ⟨n, t, v, by simp [hm], h⟩
      · exact .inr h

/-! ### Recursion -/

mutual

/-- The identifiers the size of a translated type depends on. -/
theorem directIdents_of {t : MTy} {e : GoExpr} : GoTypeOf u l d r t e → ∀ x ∈ directIdents e,
    x ∈ predeclared ∨ '.' ∈ x ∨ ∃ a t', Assigned l a t' ∧ Holds l t a ∧ x = goifyName u a ∧ ¬ TimeAlias l a
  | .boolean, x, hx => .inl (by simp [directIdents] at hx; subst hx; decide)
  | .int64 _ _, x, hx => .inl (by simp [directIdents] at hx; subst hx; decide)
  | .bigInt _ _, x, hx => by simp [directIdents] at hx
  | .real, x, hx => .inl (by simp [directIdents] at hx; subst hx; decide)
  | .characterString, x, hx => .inl (by simp [directIdents] at hx; subst hx; decide)
  | .restrictedString _, x, hx => .inl (by simp [directIdents] at hx; subst hx; decide)
  | .octetString, x, hx => by simp [directIdents] at hx
  | .bitString _, x, hx => .inr (.inl (by simp [directIdents] at hx; subst hx; decide))
  | .objectIdentifier, x, hx => .inr (.inl (by simp [directIdents] at hx; subst hx; decide))
  | .enumerated _ _, x, hx => .inr (.inl (by simp [directIdents] at hx; subst hx; decide))
  | .any _, x, hx => by simp [directIdents] at hx
  | .sequence a b fs hf, x, hx => by
    rw [directIdents] at hx
    obtain ⟨m, hm, h⟩ := directFields_of hf x hx
    rcases h with h | h | ⟨c, t', h1, h2, h3⟩
    · exact .inl h
    · exact .inr (.inl h)
    · exact .inr (.inr ⟨c, t', h1, .sequence _ _ m _ hm h2, h3⟩)
  | .set a b fs hf, x, hx => by
    rw [directIdents] at hx
    obtain ⟨m, hm, h⟩ := directFields_of hf x hx
    rcases h with h | h | ⟨c, t', h1, h2, h3⟩
    · exact .inl h
    · exact .inr (.inl h)
    · exact .inr (.inr ⟨c, t', h1, .set _ _ m _ hm h2, h3⟩)
  | .sequenceOf t e h, x, hx => by simp [directIdents] at hx
  | .setOf t e h, x, hx => by simp [directIdents] at hx
  | .tagged g t k b e h, x, hx => by
    rcases directIdents_of h x hx with h | h | ⟨c, t', h1, h2, h3⟩
    · exact .inl h
    · exact .inr (.inl h)
    · exact .inr (.inr ⟨c, t', h1, .tagged _ _ _ _ _ h2, h3⟩)
  | .constrained t c e h, x, hx => by
    rcases directIdents_of h x hx with h | h | ⟨c, t', h1, h2, h3⟩
    · exact .inl h
    · exact .inr (.inl h)
    · exact .inr (.inr ⟨c, t', h1, .constrained _ _ _ h2, h3⟩)
  | .time _ _ _ _ _, x, hx => .inr (.inl (by simp [directIdents] at hx; subst hx; decide))
  | .bits _ _ _ _ _ _ _, x, hx => .inr (.inl (by simp [directIdents] at hx; subst hx; decide))
  | .ref a b t h1 h2 _, x, hx => by
    simp only [directIdents, List.mem_singleton] at hx
    obtain ⟨t', ht⟩ := resolves_assigned h1 h2
    exact .inr (.inr ⟨a, t', ht, .ref _, hx, not_timeAlias h1 h2⟩)
  | .rawChoice _ _ _, x, hx => .inr (.inl (by simp [directIdents] at hx; subst hx; decide))
  | .onlyChoice n t ext e ha h, x, hx => by
    rcases directIdents_of h x hx with h | h | ⟨c, t', h1, h2, h3⟩
    · exact .inl h
    · exact .inr (.inl h)
    · exact .inr (.inr ⟨c, t', h1, .choice _ _ _ _ ha h2, h3⟩)
  | .choice _ _ _ _, x, hx => by simp [directIdents] at hx

theorem directFields_of {xs : List Member} {fs : List GoField} : FieldsOf u l d r xs fs → ∀ x ∈ directFields fs,
    ∃ m ∈ xs, x ∈ predeclared ∨ '.' ∈ x ∨ ∃ a t', Assigned l a t' ∧ Holds l m.type a ∧ x = goifyName u a ∧ ¬ TimeAlias l a
  | .nil, x, hx => by simp [directFields] at hx
  | .cons m ms e tag fs h1 _ h3, x, hx => by
    rw [directFields, List.mem_append] at hx
    rcases hx with hx | hx
    · exact ⟨m, by simp, directIdents_of h1 x hx⟩
    · obtain ⟨y, hy, h⟩ := directFields_of h3 x hx
      exact ⟨y, by simp [hy], h⟩

end

/-- Translations that are structs. -/
theorem struct_like {t : MTy} {e : GoExpr} : GoTypeOf u l d r t e → StructLike l t → ∃ fs, e = .struct fs
  | .sequence _ _ fs _, _ => ⟨fs, rfl⟩
  | .set _ _ fs _, _ => ⟨fs, rfl⟩
  | .tagged _ _ _ _ _ h, hs => by cases hs with | tagged _ _ _ _ hs => exact struct_like h hs
  | .constrained _ _ _ h, hs => by cases hs with | constrained _ _ hs => exact struct_like h hs
  | .onlyChoice _ _ _ _ _ h, hs => by cases hs with | choice _ _ _ _ hs => exact struct_like h hs
  | .choice _ _ _ hl, hs => by cases hs with | choice _ _ _ _ _ => simp at hl
  | .rawChoice _ _ ha, hs => by
    cases hs with
    | choice _ _ _ hn _ =>
      obtain ⟨n', t', hm, hat⟩ := ha
      simp only [List.mem_singleton, NamedType.mk.injEq] at hm
      obtain ⟨rfl, rfl⟩ := hm
      exact absurd hat hn

/-- A declared type: for a type of the module, or the type behind a SET type. -/
inductive SpecFor (u : Casing) (l : List MAssignment) (d : Int) (r : Str) (as : List MAssignment) : GoTypeSpec → Prop
  | struct (n : Str) (t : MTy) (fs : List GoField) : .type n t ∈ as → ¬ MarksSet l t → GoTypeOf u l d r t (.struct fs) →
      SpecFor u l d r as ⟨goifyName u n, false, .struct fs⟩
  | alias (n : Str) (t : MTy) (e : GoExpr) : .type n t ∈ as → ¬ MarksSet l t → GoTypeOf u l d r t e → (∀ fs, e ≠ .struct fs) →
      SpecFor u l d r as ⟨goifyName u n, true, e⟩
  | set (n : Str) (t : MTy) (e : GoExpr) : .type n t ∈ as → MarksSet l t → GoTypeOf u l d r t e →
      SpecFor u l d r as ⟨goifyName u n ++ c! "SET", false, e⟩
  | setAlias (n : Str) (t : MTy) : .type n t ∈ as → MarksSet l t →
      SpecFor u l d r as ⟨goifyName u n, true, .ident (goifyName u n ++ c! "SET")⟩

theorem SpecFor.mono {as as' : List MAssignment} (hs : as ⊆ as') {s : GoTypeSpec} (h : SpecFor u l d r as s) : SpecFor u l d r as' s := by
  cases h with
  | struct n t fs h1 h2 h3 => exact .struct n t fs (hs h1) h2 h3
  | «alias» n t e h1 h2 h3 h4 => exact .alias n t e (hs h1) h2 h3 h4
  | set n t e h1 h2 h3 => exact .set n t e (hs h1) h2 h3
  | setAlias n t h1 h2 => exact .setAlias n t (hs h1) h2

theorem spec_for {as : List MAssignment} {ds : List GoDecl} (h : DeclsFor u l d r as ds) :
    ∀ specs s, GoDecl.type specs ∈ ds → s ∈ specs → SpecFor u l d r as s := by
  induction h with
  | done => simp
  | type n t as dc v ds h1 h2 h3 ih =>
    intro specs s hd hs
    rcases List.mem_cons.1 hd with rfl | hd
    · cases h1 with
      | struct fs hm he => simp only [List.mem_singleton] at hs; subst hs; exact .struct n t fs (by simp) hm he
      | «alias» e hm he hn => simp only [List.mem_singleton] at hs; subst hs; exact .alias n t e (by simp) hm he hn
      | set e hm he =>
        simp only [List.mem_cons, List.not_mem_nil, or_false] at hs
        rcases hs with rfl | rfl
        · exact .set n t e (by simp) hm he
        · exact .setAlias n t (by simp) hm
    · rcases List.mem_append.1 hd with hd | hd
      · cases h2 with
        | none _ => simp at hd
        | vars nums specs' _ _ _ => simp at hd
      · exact (ih specs s hd hs).mono (by simp)
  | value n t v as ty e ds h1 h2 h3 ih => exact fun specs s hd hs => (ih specs s (by simpa using hd) hs).mono (by simp)
  | skip n t v as ds _ _ ih => exact fun specs s hd hs => (ih specs s hd hs).mono (by simp)
  | nil as ds _ ih => exact fun specs s hd hs => (ih specs s hd hs).mono (by simp)

/-- The Go names of types are not predeclared and have no dots. -/
theorem goify_upper_name {a : Str} (h : UpperName u a) (suffix : Str) (hd : '.' ∉ suffix) :
    goifyName u a ++ suffix ∉ predeclared ∧ '.' ∉ goifyName u a ++ suffix := by
  have hdot : '.' ∉ a := by
    intro hm
    have hw := h.word.chars '.' hm
    unfold WordChar at hw
    rw [u.letter_ascii _ (by decide), u.digit_ascii _ (by decide)] at hw
    exact absurd hw (by decide)
  refine ⟨fun hm => ?_, ?_⟩
  · obtain ⟨c, cs, rfl, hc⟩ := h.word.letter
    have hu : u.isUpper c = true := by simpa using h.upper
    have hca := h.ascii c (by simp)
    rw [goify_word h.word, toTitle_upper hca hu] at hm
    rw [u.upper_ascii c hca] at hu
    have : ∀ s ∈ predeclared, ∀ c cs, s = c :: cs → ¬ (65 ≤ c.toNat ∧ c.toNat ≤ 90) := by
      intro s hs c cs hcs
      subst hcs
      simp only [predeclared, List.mem_cons, List.cons.injEq, List.not_mem_nil, or_false] at hs
      rcases hs with h | h | h | h | h <;> rw [h.1] <;> decide
    exact this _ hm _ _ rfl (by simpa using hu)
  · simp only [List.mem_append, not_or]
    exact ⟨goify_dot hdot, hd⟩

/-- A name that is declared as a type is neither predeclared nor from a package. -/
theorem spec_name (hw : WellNamed u l) {s : GoTypeSpec} (h : SpecFor u l d r l s) : s.name ∉ predeclared ∧ '.' ∉ s.name := by
  cases h with
  | struct n t fs h1 h2 h3 => simpa using goify_upper_name (hw.typeName n (mem_typeNames h1)) [] (by simp)
  | «alias» n t e h1 h2 h3 h4 => simpa using goify_upper_name (hw.typeName n (mem_typeNames h1)) [] (by simp)
  | set n t e h1 h2 h3 => exact goify_upper_name (hw.typeName n (mem_typeNames h1)) _ (by decide)
  | setAlias n t h1 h2 => simpa using goify_upper_name (hw.typeName n (mem_typeNames h1)) [] (by simp)

/-- The declared name `x` is for the type `a` of the module. -/
def NameFor (u : Casing) (l : List MAssignment) (x a : Str) : Prop :=
  a ∈ typeNames l ∧ (x = goifyName u a ∨ (x = goifyName u a ++ c! "SET" ∧ ∃ t, .type a t ∈ l ∧ MarksSet l t))

theorem nameFor_unique (hw : WellNamed u l) (hs : NoSetClash l) {x a b : Str} (ha : NameFor u l x a) (hb : NameFor u l x b) : a = b := by
  have hset : ∀ {a b : Str}, a ∈ typeNames l → (∃ t, .type b t ∈ l ∧ MarksSet l t) → goifyName u a ≠ goifyName u b ++ c! "SET" := by
    intro a b ha ⟨t, hb, hm⟩ he
    rw [goify_upper (hw.typeName a ha), goify_upper (hw.typeName b (mem_typeNames hb)), show c! "SET" = (c! "SET").map under from rfl,
      ← List.map_append] at he
    have := map_under_inj (word_under (hw.typeName a ha).word) (fun c hc => by
      rcases List.mem_append.1 hc with hc | hc
      · exact word_under (hw.typeName b (mem_typeNames hb)).word c hc
      · exact (by decide : ∀ c ∈ c! "SET", c ≠ '_') c hc) he
    subst this
    exact hs b t hb hm ha
  obtain ⟨ha1, ha⟩ := ha
  obtain ⟨hb1, hb⟩ := hb
  rcases ha with rfl | ⟨rfl, ha⟩ <;> rcases hb with hb | ⟨hb, hb2⟩
  · exact goify_upper_inj (hw.typeName a ha1) (hw.typeName b hb1) hb
  · exact absurd hb (hset ha1 hb2)
  · exact absurd hb.symm (hset hb1 ha)
  · exact goify_upper_inj (hw.typeName a ha1) (hw.typeName b hb1) (List.append_cancel_right hb)

/-- One step of size dependency, in the module. -/
theorem size_step (hw : WellNamed u l) {f : GoFile} (hf : ∀ s, Declares f s → SpecFor u l d r l s) {x y : Str}
    (h : SizeStep f x y) : ∃ a b, NameFor u l x a ∧ NameFor u l y b ∧
      (HoldsStep l a b ∨ (a = b ∧ x = goifyName u a ∧ y = goifyName u a ++ c! "SET")) := by
  obtain ⟨⟨s, hd, rfl, hy⟩, s', hd', rfl⟩ := h
  obtain ⟨hp, hdot⟩ := spec_name hw (hf s' hd')
  have key : ∀ {n : Str} {t : MTy} {e : GoExpr}, .type n t ∈ l → GoTypeOf u l d r t e → s'.name ∈ directIdents e →
      ∃ b, NameFor u l s'.name b ∧ HoldsStep l n b := by
    intro n t e hm he hx
    rcases directIdents_of he _ hx with h | h | ⟨b, t', h1, h2, h3, h4⟩
    · exact absurd h hp
    · exact absurd h hdot
    · exact ⟨b, ⟨mem_typeNames (List.mem_of_find?_eq_some h1), .inl h3⟩, t, hm, h2, h4⟩
  cases hf s hd with
  | struct n t fs h1 h2 h3 =>
    obtain ⟨b, hb1, hb2⟩ := key h1 h3 hy
    exact ⟨n, b, ⟨mem_typeNames h1, .inl rfl⟩, hb1, .inl hb2⟩
  | «alias» n t e h1 h2 h3 h4 =>
    obtain ⟨b, hb1, hb2⟩ := key h1 h3 hy
    exact ⟨n, b, ⟨mem_typeNames h1, .inl rfl⟩, hb1, .inl hb2⟩
  | set n t e h1 h2 h3 =>
    obtain ⟨b, hb1, hb2⟩ := key h1 h3 hy
    exact ⟨n, b, ⟨mem_typeNames h1, .inr ⟨rfl, t, h1, h2⟩⟩, hb1, .inl hb2⟩
  | setAlias n t h1 h2 =>
    simp only [directIdents, List.mem_singleton] at hy
    exact ⟨n, n, ⟨mem_typeNames h1, .inl rfl⟩, ⟨mem_typeNames h1, .inr ⟨hy, t, h1, h2⟩⟩, .inr ⟨rfl, rfl, hy⟩⟩

theorem size_path (hw : WellNamed u l) (hs : NoSetClash l) {f : GoFile} (hf : ∀ s, Declares f s → SpecFor u l d r l s) {x y : Str}
    (h : TransGen (SizeStep f) x y) : ∃ a b, NameFor u l x a ∧ NameFor u l y b ∧
      (TransGen (HoldsStep l) a b ∨ (a = b ∧ x = goifyName u a ∧ y = goifyName u a ++ c! "SET")) := by
  induction h with
  | single h =>
    obtain ⟨a, b, ha, hb, h⟩ := size_step hw hf h
    exact ⟨a, b, ha, hb, h.imp .single id⟩
  | tail _ h ih =>
    obtain ⟨a, b, ha, hb, h1⟩ := ih
    obtain ⟨b', c, hb', hc, h2⟩ := size_step hw hf h
    have := nameFor_unique hw hs hb hb'
    subst this
    refine ⟨a, c, ha, hc, .inl ?_⟩
    rcases h1 with h1 | ⟨rfl, h1, h1'⟩ <;> rcases h2 with h2 | ⟨rfl, h2, h2'⟩
    · exact h1.tail h2
    · exact h1
    · exact .single h2
    · rw [h1'] at h2
      exact absurd (congrArg List.length h2) (by simp)

theorem no_size_cycle (hw : WellNamed u l) (hs : NoSetClash l) {f : GoFile} (hf : ∀ s, Declares f s → SpecFor u l d r l s)
    (hh : ∀ a, ¬ TransGen (HoldsStep l) a a) (x : Str) : ¬ TransGen (SizeStep f) x x := by
  intro h
  obtain ⟨a, b, ha, hb, h⟩ := size_path hw hs hf h
  have := nameFor_unique hw hs ha hb
  subst this
  rcases h with h | ⟨_, h, h'⟩
  · exact hh a h
  · rw [h] at h'
    exact absurd (congrArg List.length h') (by simp)

/-- One step between aliases, in the module. -/
theorem alias_step (hw : WellNamed u l) (hs : NoSetClash l) {f : GoFile} (hf : ∀ s, Declares f s → SpecFor u l d r l s) {x y : Str}
    (h : AliasStep f x y) : ∃ a b, NameFor u l x a ∧ NameFor u l y b ∧ MentionsStep l a b := by
  obtain ⟨⟨s, hd, rfl, hal, hy⟩, s', hd', rfl, hal'⟩ := h
  obtain ⟨hp, hdot⟩ := spec_name hw (hf s' hd')
  cases hf s hd with
  | struct n t fs h1 h2 h3 => simp at hal
  | «alias» n t e h1 h2 h3 h4 =>
    rcases typeIdents h3 _ hy with h | h | ⟨b, t', hb1, hb2, hb3, hb4⟩
    · exact absurd h hp
    · exact absurd h hdot
    · refine ⟨n, b, ⟨mem_typeNames h1, .inl rfl⟩, ⟨mem_typeNames (List.mem_of_find?_eq_some hb1), .inl hb3⟩, t, h1, h2, ?_, hb2, hb4⟩
      intro hsl
      obtain ⟨fs, hfs⟩ := struct_like h3 hsl
      exact h4 fs hfs
  | set n t e h1 h2 h3 => simp at hal
  | setAlias n t h1 h2 =>
    simp only [exprIdents, List.mem_singleton] at hy
    have hx : NameFor u l s'.name n := ⟨mem_typeNames h1, .inr ⟨hy, t, h1, h2⟩⟩
    have no : ∀ {m : Str}, m ∈ typeNames l → s'.name ≠ goifyName u m := by
      intro m hm he
      have := nameFor_unique hw hs hx ⟨hm, .inl he⟩
      subst this
      rw [hy] at he
      exact absurd (congrArg List.length he) (by simp)
    cases hsp : hf s' hd' with
    | struct n t fs h1 h2 h3 => simp at hal'
    | «alias» m t e h1 h2 h3 h4 => exact absurd rfl (no (mem_typeNames h1))
    | set n t e h1 h2 h3 => simp at hal'
    | setAlias m t h1 h2 => exact absurd rfl (no (mem_typeNames h1))

theorem no_alias_cycle (hw : WellNamed u l) (hs : NoSetClash l) {f : GoFile} (hf : ∀ s, Declares f s → SpecFor u l d r l s)
    (hh : ∀ a, ¬ TransGen (MentionsStep l) a a) (x : Str) : ¬ TransGen (AliasStep f) x x := by
  have path : ∀ {x y : Str}, TransGen (AliasStep f) x y → ∃ a b, NameFor u l x a ∧ NameFor u l y b ∧ TransGen (MentionsStep l) a b := by
    intro x y h
    induction h with
    | single h =>
      obtain ⟨a, b, ha, hb, h⟩ := alias_step hw hs hf h
      exact ⟨a, b, ha, hb, .single h⟩
    | tail _ h ih =>
      obtain ⟨a, b, ha, hb, h1⟩ := ih
      obtain ⟨b', c, hb', hc, h2⟩ := alias_step hw hs hf h
      have := nameFor_unique hw hs hb hb'
      subst this
      exact ⟨a, c, ha, hc, h1.tail h2⟩
  intro h
  obtain ⟨a, b, ha, hb, h⟩ := path h
  have := nameFor_unique hw hs ha hb
  subst this
  exact hh a h

/-! ### Initial values -/

theorem typeIs_leaf {t c : MTy} (h : TypeIs l t c) : ∀ {a t0 : _}, Assigned l a t0 → t = t0 → (∀ b, c ≠ .ref b) →
    ∃ b t', Leaf l a b t' ∧ Core t' c ∧ Assigned l b t' := by
  induction h with
  | core t c hc hn =>
    rintro a t0 ha rfl hcr
    exact ⟨a, t, .assigned _ _ _ ha hc hn, hc, ha⟩
  | ref t t' c b hc hb _ ih =>
    rintro a t0 ha rfl hcr
    obtain ⟨b', t'', h1, h2, h3⟩ := ih hb rfl hcr
    exact ⟨b', t'', .alias _ _ _ _ ⟨t, ha, hc⟩ h1, h2, h3⟩

theorem not_marks {t c : MTy} (hc : Core t c) : (∀ a b, c ≠ .set a b) → (∀ t', c ≠ .setOf t') → (∀ t', c ≠ .sequenceOf t') → (∀ a b, c ≠ .choice a b) →
    ¬ MarksSet l t := by
  intro h1 h2 h3 h4 hm
  induction hm with
  | set a b => rw [core_iff] at hc; exact h1 a b hc.symm
  | setOf t => rw [core_iff] at hc; exact h2 t hc.symm
  | sequenceOf t _ _ => rw [core_iff] at hc; exact h3 t hc.symm
  | tagged g t k h _ ih => rw [core_iff] at hc; rw [removeWrapperTypes] at hc; exact ih (core_iff.2 hc)
  | constrained t x _ ih => rw [core_iff] at hc; rw [removeWrapperTypes] at hc; exact ih (core_iff.2 hc)
  | choice n t e _ _ _ => rw [core_iff] at hc; exact h4 _ _ hc.symm

/-- Tags and constraints do not matter for the translation. -/
theorem goType_core {t c : MTy} {e : GoExpr} (hc : Core t c) : GoTypeOf u l d r t e → GoTypeOf u l d r c e := by
  induction hc with
  | tagged g t c k h _ ih => intro hg; cases hg with | tagged _ _ _ _ _ hg => exact ih hg
  | constrained t c x _ ih => intro hg; cases hg with | constrained _ _ _ hg => exact ih hg
  | done t _ _ => exact id

/-- The Go type of the types whose values are literals. -/
def basicType (repr : Str) : MTy → Option GoExpr
  | .integer _ => some (if repr = c! "big.Int" then .star (.ident (c! "big.Int")) else .ident (c! "int64"))
  | .real => some (.ident (c! "float64"))
  | .boolean => some (.ident (c! "bool"))
  | _ => none

theorem basic_core {c : MTy} {e x : GoExpr} (h : basicType r c = some x) (hg : GoTypeOf u l d r c e) : e = x := by
  cases hg with
  | int64 nums hr => subst hr; simpa [basicType] using h
  | bigInt nums hr => subst hr; simpa [basicType] using h
  | real => simpa [basicType] using h
  | boolean => simpa [basicType] using h
  | _ => simp [basicType] at h

/-- A type that is INTEGER, REAL or BOOLEAN behind its references is so in Go. -/
theorem type_denotes {f : GoFile} {dl : List GoDecl} (hdl : DeclsFor u l d r l dl) (hsub : dl ⊆ f.decls) {t c : MTy}
    (h : TypeIs l t c) : ¬ TimeTyped l t → ∀ {e x : GoExpr}, basicType r c = some x → GoTypeOf u l d r t e → Denotes f e x := by
  induction h with
  | core t c hc _ =>
    intro _ e x hb hg
    rw [basic_core hb (goType_core hc hg)]
    exact .here _
  | ref t t' c a hc ha hi ih =>
    intro htime e x hb hg
    have htime' : ¬ TimeTyped l t' := by
      rintro ⟨a', hc', b', s, hr, hn⟩
      refine htime ⟨a, hc, b', s, ?_, hn⟩
      cases hr with
      | assigned _ _ hl hn => exact .assigned _ _ _ (.alias _ _ _ _ ⟨_, ha, hc'⟩ hl) hn
      | generalizedTime hl => exact .generalizedTime _ (.alias _ _ _ _ ⟨_, ha, hc'⟩ hl)
    have hcr : ∀ b, c ≠ .ref b := by rintro b rfl; simp [basicType] at hb
    obtain ⟨b, t'', hl, hct, has⟩ := typeIs_leaf hi ha rfl hcr
    have hnil : t'' ≠ .nil := by
      rintro rfl
      rw [core_iff] at hct
      subst hct
      simp [removeWrapperTypes, basicType] at hb
    have hres : Resolves l a b t'' := .assigned _ _ _ hl hnil
    have hnt : ¬ TimeName b := fun hn => htime ⟨a, hc, b, t'', hres, hn⟩
    have hident : e = .ident (goifyName u a) := by
      have hg := goType_core hc hg
      cases hg with
      | time _ b' s h1 h2 =>
        obtain ⟨rfl, rfl⟩ := resolves_unique h1 hres
        exact absurd h2 hnt
      | bits _ b' s nb h1 h2 h3 =>
        obtain ⟨rfl, rfl⟩ := resolves_unique h1 hres
        rw [core_iff] at h3 hct
        rw [h3] at hct
        subst hct
        simp [basicType] at hb
      | ref => rfl
    subst hident
    obtain ⟨dc, v, hm, -, hty, -⟩ := decls_type hdl (List.mem_of_find?_eq_some ha)
    have hcore' : ∃ c', Core t' c' ∧ ((∃ b, c' = .ref b) ∨ c' = c) := by
      cases hi with
      | core _ _ h _ => exact ⟨_, h, .inr rfl⟩
      | ref _ _ _ b h _ _ => exact ⟨_, h, .inl ⟨b, rfl⟩⟩
    obtain ⟨c', hc', hcc⟩ := hcore'
    have hnm : ¬ MarksSet l t' := by
      refine not_marks hc' ?_ ?_ ?_ ?_ <;> rcases hcc with ⟨b, rfl⟩ | rfl <;> intros <;> first | (rintro rfl; simp [basicType] at hb; done) | (simp; done)
    cases hty with
    | struct fs _ he =>
      exfalso
      have := goType_core hc' he
      rcases hcc with ⟨b, rfl⟩ | rfl
      · cases this
      · have := basic_core hb this
        subst this
        revert hb
        cases c' <;> simp [basicType]
        split <;> simp
    | «alias» e _ he hn => exact .alias _ _ _ ⟨_, hsub hm, List.mem_singleton.2 rfl⟩ (ih htime' hb he)
    | set e hmk _ => exact absurd hmk hnm

/-- What a variable is for. -/
inductive VarFor (u : Casing) (l : List MAssignment) (d : Int) (r : Str) (as : List MAssignment) (s : GoValueSpec) : Prop
  | value (n : Str) (t : MTy) (v : Value DefinedValue) : .value n t v ∈ as → GoTypeOf u l d r t s.type → LiteralExpr r v s.value →
      VarFor u l d r as s
  | number (n : Str) (t : MTy) (nums : List NamedNumber) (k : NamedNumber) : .type n t ∈ as → Core t (.integer nums) → k ∈ nums →
      NumberVar u r (goifyName u n) k s → VarFor u l d r as s

theorem VarFor.mono {as as' : List MAssignment} (hs : as ⊆ as') {s : GoValueSpec} (h : VarFor u l d r as s) : VarFor u l d r as' s := by
  cases h with
  | value n t v h1 h2 h3 => exact .value n t v (hs h1) h2 h3
  | number n t nums k h1 h2 h3 h4 => exact .number n t nums k (hs h1) h2 h3 h4

theorem var_for {as : List MAssignment} {ds : List GoDecl} (h : DeclsFor u l d r as ds) :
    ∀ specs s, GoDecl.var specs ∈ ds → s ∈ specs → VarFor u l d r as s := by
  induction h with
  | done => simp
  | type n t as dc v ds h1 h2 h3 ih =>
    intro specs s hd hs
    rcases List.mem_cons.1 hd with rfl | hd
    · cases h1
    · rcases List.mem_append.1 hd with hd | hd
      · cases h2 with
        | none _ => simp at hd
        | vars nums specs' hc _ hf =>
          simp only [List.mem_singleton, GoDecl.var.injEq] at hd
          subst hd
          obtain ⟨k, hk, hks⟩ := forall2_right hf hs
          exact .number n t nums k (by simp) hc hk hks
      · exact (ih specs s hd hs).mono (by simp)
  | value n t v as ty e ds h1 h2 h3 ih =>
    intro specs s hd hs
    rcases List.mem_cons.1 hd with hd | hd
    · cases hd
      simp only [List.mem_singleton] at hs
      subst hs
      exact .value n t v (by simp) h2 h1
    · exact (ih specs s hd hs).mono (by simp)
  | skip n t v as ds _ _ ih => exact fun specs s hd hs => (ih specs s hd hs).mono (by simp)
  | nil as ds _ ih => exact fun specs s hd hs => (ih specs s hd hs).mono (by simp)

/-- An integer can be assigned to a variable of an INTEGER type. -/
theorem int_assignable {f : GoFile} {t e : GoExpr} {n : Int} {nums : List NamedNumber} (ht : ∀ x, basicType r (.integer nums) = some x → Denotes f t x)
    (he : IntExpr r n e) (hn : GoInt n) : Assignable f t e := by
  obtain ⟨s, h1, h2, rfl⟩ := he
  by_cases hr : r = c! "big.Int"
  · rw [if_pos hr]
    exact .big _ s n (ht _ (by rw [basicType, if_pos hr])) ⟨h1, h2⟩ hn
  · rw [if_neg hr]
    exact .int64 _ s n (ht _ (by rw [basicType, if_neg hr])) ⟨h1, h2⟩ hn

/-- The Go type of a type with named numbers. -/
theorem number_type {f : GoFile} {dl : List GoDecl} (hdl : DeclsFor u l d r l dl) (hsub : dl ⊆ f.decls) {n : Str} {t : MTy} {nums : List NamedNumber}
    (hm : .type n t ∈ l) (hc : Core t (.integer nums)) {x : GoExpr} (hx : basicType r (.integer nums) = some x) : Denotes f (.ident (goifyName u n)) x := by
  obtain ⟨dc, v, hd, -, hty, -⟩ := decls_type hdl hm
  cases hty with
  | struct fs _ he =>
    have := basic_core hx (goType_core hc he)
    subst this
    simp only [basicType, Option.some.injEq] at hx
    split at hx <;> cases hx
  | «alias» e _ he hn =>
    refine .alias _ _ _ ⟨_, hsub hd, List.mem_singleton.2 rfl⟩ ?_
    rw [basic_core hx (goType_core hc he)]
    exact .here _
  | set e hmk _ => exact absurd hmk (not_marks hc (by simp) (by simp) (by simp) (by simp))

/-- Initial values have the types of their variables. -/
theorem well_typed {f : GoFile} {dl : List GoDecl} (hdl : DeclsFor u l d r l dl) (hsub : dl ⊆ f.decls) (hv : ValuesOk l)
    (htime : ∀ n t v, .value n t v ∈ l → Literal v → ¬ TimeTyped l t) (hreal : ∀ n t x, .value n t (.real x) ∈ l → FiniteReal x)
    (hbig : r = c! "big.Int" → ∀ n t k, .value n t (.number k) ∈ l → ¬ TypeIs l t .real) :
    ∀ specs s, GoDecl.var specs ∈ dl → s ∈ specs → Assignable f s.type s.value := by
  intro specs s hd hs
  cases var_for hdl specs s hd hs with
  | value n t v hm hg he =>
    obtain ⟨_, sty, sval⟩ := s
    cases he with
    | number k e he =>
      cases hv.value n t _ hm trivial with
      | integer _ nums hti hk => exact int_assignable (nums := nums) (fun x hx => type_denotes hdl hsub hti (htime n t _ hm trivial) hx hg) he hk
      | whole _ hti hk =>
        obtain ⟨txt, h1, h2, h3⟩ := he
        by_cases hr : r = c! "big.Int"
        · exact absurd hti (hbig hr n t k hm)
        · rw [if_neg hr] at h3
          subst h3
          exact .float64 _ txt k (type_denotes hdl hsub hti (htime n t _ hm trivial) rfl hg) ⟨h1, h2⟩
    | boolean b =>
      cases hv.value n t _ hm trivial with
      | boolean _ hti =>
        refine .bool _ _ (type_denotes hdl hsub hti (htime n t _ hm trivial) rfl hg) ?_
        cases b
        · exact .inr rfl
        · exact .inl rfl
    | real y =>
      cases hv.value n t _ hm trivial with
      | real _ hti => exact .real _ _ (type_denotes hdl hsub hti (htime n t _ hm trivial) rfl hg) (hreal n t y hm)
  | number n t nums k hm hc hk hks =>
    rw [hks.type]
    rcases hv.number n t nums hm hc k hk with ⟨i, hi, hgi⟩ | ⟨dv, t', v, nums', hdv, hmv, hlit, hti⟩
    · exact int_assignable (nums := nums) (fun x hx => number_type hdl hsub hm hc hx) (hks.number i hi) hgi
    · rw [hks.defined dv hdv]
      obtain ⟨ty, e, hvar, hg, -⟩ := decls_value hdl hlit hmv
      refine .variable _ ty (if r = c! "big.Int" then .star (.ident (c! "big.Int")) else .ident (c! "int64")) e _ _ (hsub hvar)
        (List.mem_singleton.2 rfl) (number_type hdl hsub hm hc rfl) (type_denotes hdl hsub hti (htime _ _ _ hmv hlit) rfl hg)

/-- What declared names are declared for. -/
theorem declared_origin {u : Casing} {l as : List MAssignment} {d : Int} {r : Str} {ds : List GoDecl} (h : DeclsFor u l d r as ds) :
    ∀ x ∈ declared ds, ∃ o : Origin, x = o.name u ∧ o.Ok l as := by
  induction h with
  | done => simp [declared]
  | type n t as dc v ds h1 h2 h3 ih =>
    intro x hx
    rw [show dc :: (v ++ ds) = [dc] ++ (v ++ ds) from rfl, declared_append, declared_append] at hx
    rcases List.mem_append.1 hx with hx | hx
    · cases h1 with
      | struct fs _ _ => simp only [declared, List.map_cons, List.map_nil, List.append_nil, List.mem_singleton] at hx; exact ⟨.ty n, hx, by simp [Origin.Ok, typeNames]⟩
      | «alias» e _ _ _ => simp only [declared, List.map_cons, List.map_nil, List.append_nil, List.mem_singleton] at hx; exact ⟨.ty n, hx, by simp [Origin.Ok, typeNames]⟩
      | set e hm _ =>
        simp only [declared, List.map_cons, List.map_nil, List.append_nil, List.mem_cons, List.not_mem_nil, or_false] at hx
        rcases hx with hx | hx
        · exact ⟨.set n, hx, t, by simp, hm⟩
        · exact ⟨.ty n, hx, by simp [Origin.Ok, typeNames]⟩
    · rcases List.mem_append.1 hx with hx | hx
      · cases h2 with
        | none _ => simp [declared] at hx
        | vars nums specs hc _ hf =>
          simp only [declared, List.append_nil] at hx
          rw [numberVars_names hf] at hx
          obtain ⟨k, hk, rfl⟩ := List.mem_map.1 hx
          exact ⟨.num n k.name, rfl, t, nums, by simp, hc, List.mem_map.2 ⟨k, hk, rfl⟩⟩
      · obtain ⟨o, ho, hok⟩ := ih x hx
        exact ⟨o, ho, hok.mono (by simp)⟩
  | value n t v as ty e ds h1 _ _ ih =>
    intro x hx
    simp only [declared, List.map_cons, List.map_nil, List.cons_append, List.nil_append, List.mem_cons] at hx
    rcases hx with hx | hx
    · exact ⟨.val n, hx, t, v, by simp, h1.literal⟩
    · obtain ⟨o, ho, hok⟩ := ih x hx
      exact ⟨o, ho, hok.mono (by simp)⟩
  | skip n t v as ds _ _ ih =>
    intro x hx
    obtain ⟨o, ho, hok⟩ := ih x hx
    exact ⟨o, ho, hok.mono (by simp)⟩
  | nil as ds _ ih =>
    intro x hx
    obtain ⟨o, ho, hok⟩ := ih x hx
    exact ⟨o, ho, hok.mono (by simp)⟩

end Asn1go.CG
