import Verif.Proofs.Codegen.Check2

/-! Converses: module conditions that follow from the rules of Go for the generated file. -/

namespace Asn1go.CG

open Spec Relation

variable {u : Casing} {l : List MAssignment} {d : Int} {r : Str}

/-! ### Assignments by name -/

/-- In a module with proper names, a type assignment is the one its name leads to. -/
theorem assigned_of_mem (hw : WellNamed u l) {a : Str} {t : MTy} (hm : .type a t ∈ l) : Assigned l a t := by
  have hup := hw.typeName a (mem_typeNames hm)
  have hval : ∀ t' v, (Assignment.value a t' v : MAssignment) ∉ l := by
    intro t' v hv
    have := (hw.valueName a (mem_valueNames hv)).lower
    rw [hup.upper] at this
    cases this
  have hne : a ≠ [] := by
    obtain ⟨c, cs, rfl, _⟩ := hup.word.letter
    simp
  have huniq : ∀ t', .type a t' ∈ l → t' = t := by
    intro t' hm'
    have hnd := hw.types
    clear hw hup hval
    induction l with
    | nil => simp at hm
    | cons x xs ih =>
      rcases List.mem_cons.1 hm with rfl | hm2
      · rcases List.mem_cons.1 hm' with hm' | hm'
        · cases hm'; rfl
        · exact absurd (mem_typeNames hm') (List.nodup_cons.1 (show (a :: typeNames xs).Nodup from hnd)).1
      · rcases List.mem_cons.1 hm' with rfl | hm'
        · exact absurd (mem_typeNames hm2) (List.nodup_cons.1 (show (a :: typeNames xs).Nodup from hnd)).1
        · refine ih hm2 hm' ?_
          match x with
          | .type b s => exact (List.nodup_cons.1 (show (b :: typeNames xs).Nodup from hnd)).2
          | .value b s v => exact hnd
          | .nil => exact hnd
  have hsome : (l.find? fun x => x.name == a).isSome := by
    rw [List.find?_isSome]
    exact ⟨_, hm, by simp [Assignment.name]⟩
  obtain ⟨x, hx⟩ := Option.isSome_iff_exists.1 hsome
  have hxm := List.mem_of_find?_eq_some hx
  have hxn : x.name = a := by simpa using List.find?_some hx
  match x, hx, hxm, hxn with
  | .type b s, hx, hxm, hxn =>
    have : b = a := hxn
    subst this
    rw [huniq s hxm] at hx
    exact hx
  | .value b s v, hx, hxm, hxn =>
    have : b = a := hxn
    subst this
    exact absurd hxm (hval s v)
  | .nil, hx, hxm, hxn => exact absurd hxn.symm hne

/-! ### Recursion -/

theorem leaf_end {a b : Str} {t : MTy} (h : Leaf l a b t) : Assigned l b t ∨ t = .nil := by
  induction h with
  | «alias» _ _ _ _ _ _ ih => exact ih
  | assigned a t c ha _ _ => exact .inl ha
  | unassigned a _ => exact .inr rfl

theorem holds_core {t c : MTy} {x : Str} (hc : Core t c) (h : Holds l t x) : Holds l c x := by
  induction hc with
  | tagged g t c k h' _ ih => cases h with | tagged _ _ _ _ _ h => exact ih h
  | constrained t c x _ ih => cases h with | constrained _ _ _ h => exact ih h
  | done t _ _ => exact h

theorem inside_core {t c : MTy} {x : Str} (hc : Core t c) (h : Inside l t (.ref x)) : Inside l c (.ref x) := by
  induction hc with
  | tagged g t c k h' _ ih => cases h with | tagged _ _ _ _ _ h => exact ih h
  | constrained t c x _ ih => cases h with | constrained _ _ _ h => exact ih h
  | done t _ _ => exact h

/-- A name that leads to a BIT STRING or to no type of the module is on no cycle of references. -/
theorem leaf_no_cycle (hw : WellNamed u l) {S : Str → Str → Prop} {Q : MTy → Str → Prop} (hS : ∀ {a x}, S a x → ∃ t, .type a t ∈ l ∧ Q t x)
    (hcore : ∀ {t c x}, Core t c → Q t x → Q c x) (href : ∀ {b x}, Q (.ref b) x → x = b) (hbits : ∀ {nb x}, ¬ Q (.bitString nb) x)
    (hnil : ∀ {x}, ¬ Q .nil x) {a b : Str} {t : MTy} (h : Leaf l a b t) (ht : t = .nil ∨ ∃ nb, Core t (.bitString nb)) : ¬ TransGen S a a := by
  have key : ∀ {a t x}, Assigned l a t → S a x → Q t x := by
    intro a t x ha hs
    obtain ⟨t', hm, hq⟩ := hS hs
    rwa [assigned_unique ha (assigned_of_mem hw hm)]
  have first : ∀ {a x}, TransGen S a x → ∃ y, S a y ∧ ReflTransGen S y x := fun h => TransGen.head'_iff.1 h
  induction h with
  | «alias» a c b t hal _ ih =>
    obtain ⟨t', ha, hc⟩ := hal
    intro hcyc
    obtain ⟨y, hy, hyx⟩ := first hcyc
    have := href (hcore hc (key ha hy))
    subst this
    exact ih ht (TransGen.tail' hyx hy)
  | assigned a t c ha hc _ =>
    intro hcyc
    obtain ⟨y, hy, -⟩ := first hcyc
    have hq := key ha hy
    rcases ht with rfl | ⟨nb, hb⟩
    · exact hnil hq
    · exact hbits (hcore hb hq)
  | unassigned a hu =>
    intro hcyc
    obtain ⟨y, hy, -⟩ := first hcyc
    obtain ⟨t', hm, -⟩ := hS hy
    exact hu t' (assigned_of_mem hw hm)

/-- A reference on a cycle is translated to the name of the type. -/
theorem cycle_ref (hw : WellNamed u l) {S : Str → Str → Prop} {Q : MTy → Str → Prop}
    (hS : ∀ {a x}, S a x → ∃ t, .type a t ∈ l ∧ Q t x) (hcore : ∀ {t c x}, Core t c → Q t x → Q c x) (href : ∀ {b x}, Q (.ref b) x → x = b)
    (hbits : ∀ {nb x}, ¬ Q (.bitString nb) x) (hnil : ∀ {x}, ¬ Q .nil x)
    (htime : ∀ {a x}, S a x → ¬ TimeAlias l x) {a : Str} {e : GoExpr} (ha : TransGen S a a)
    (h : GoTypeOf u l d r (.ref a) e) : e = .ident (goifyName u a) := by
  cases h with
  | time _ b t h1 h2 =>
    obtain ⟨y, -, hy⟩ := TransGen.tail'_iff.1 ha
    exact absurd ⟨b, t, h1, h2⟩ (htime hy)
  | bits _ b t nb h1 h2 h3 =>
    exfalso
    cases h1 with
    | assigned _ _ hl hn => exact leaf_no_cycle (S := S) (Q := Q) hw hS hcore href hbits hnil hl (.inr ⟨nb, h3⟩) ha
    | generalizedTime hl => exact h2 (.inl rfl)
  | ref => rfl

/-- The relation `S`, along a cycle, as the relation `T`. -/
theorem cycle_lift {α β : Type} {S : α → α → Prop} {T : β → β → Prop} {g : α → β}
    (h : ∀ a b, S a b → TransGen S a a → TransGen S b b → TransGen T (g a) (g b)) {a : α} (ha : TransGen S a a) : TransGen T (g a) (g a) := by
  have : ∀ {b}, TransGen S a b → ReflTransGen S b a → TransGen T (g a) (g b) := by
    intro b hb
    induction hb with
    | single h1 => exact fun h2 => h _ _ h1 ha (TransGen.tail' h2 h1)
    | tail h1 h2 ih =>
      exact fun h3 => (ih (.head h2 h3)).trans (h _ _ h2 (TransGen.head' h2 (h3.trans h1.to_reflTransGen)) (TransGen.tail' (h3.trans h1.to_reflTransGen) h2))
  exact this ha .refl

mutual

/-- The type held is mentioned by name in the translation, if it is on a cycle. -/
theorem holds_direct (hw : WellNamed u l) {t : MTy} {e : GoExpr} {a : Str} (ha : TransGen (HoldsStep l) a a) :
    GoTypeOf u l d r t e → Holds l t a → goifyName u a ∈ directIdents e
  | .sequence x y fs hf, h => by
    cases h with
    | sequence _ _ m _ hm h => rw [directIdents]; exact holds_fields hw ha hf m hm h
  | .set x y fs hf, h => by
    cases h with
    | set _ _ m _ hm h => rw [directIdents]; exact holds_fields hw ha hf m hm h
  | .tagged g t k b e h, hh => by cases hh with | tagged _ _ _ _ _ hh => exact holds_direct hw ha h hh
  | .constrained t c e h, hh => by cases hh with | constrained _ _ _ hh => exact holds_direct hw ha h hh
  | .onlyChoice n t ext e _ h, hh => by cases hh with | choice _ _ _ _ _ hh => exact holds_direct hw ha h hh
  | .choice alts ext h1 h2, hh => by cases hh with | choice _ _ _ _ _ hh => simp at h2
  | .rawChoice alts ext h1, hh => by
    cases hh with
    | choice n t _ _ hn hh =>
      obtain ⟨n', t', hm, hat⟩ := h1
      simp only [List.mem_singleton, NamedType.mk.injEq] at hm
      obtain ⟨rfl, rfl⟩ := hm
      exact absurd hat hn
  | .time b c s h1 h2, hh => by
    cases hh
    have := cycle_ref (S := HoldsStep l) (Q := Holds l) (d := d) (r := r) hw (fun ⟨t, h1, h2, _⟩ => ⟨t, h1, h2⟩) (fun hc h => holds_core hc h) (fun h => by cases h; rfl) (fun h => by cases h) (fun h => by cases h)
      (fun ⟨_, _, _, h⟩ => h) ha (.time _ c s h1 h2)
    rw [this]
    simp [directIdents]
  | .bits b c s nb h1 h2 h3, hh => by
    cases hh
    have := cycle_ref (S := HoldsStep l) (Q := Holds l) (d := d) (r := r) hw (fun ⟨t, h1, h2, _⟩ => ⟨t, h1, h2⟩) (fun hc h => holds_core hc h) (fun h => by cases h; rfl) (fun h => by cases h) (fun h => by cases h)
      (fun ⟨_, _, _, h⟩ => h) ha (.bits _ c s nb h1 h2 h3)
    rw [this]
    simp [directIdents]
  | .ref b c s h1 h2 h3, hh => by cases hh; simp [directIdents]

theorem holds_fields (hw : WellNamed u l) {xs : List Member} {fs : List GoField} {a : Str}
    (ha : TransGen (HoldsStep l) a a) : FieldsOf u l d r xs fs → ∀ m ∈ xs, Holds l m.type a → goifyName u a ∈ directFields fs
  | .nil, m, hm, _ => by simp at hm
  | .cons x xs e tag fs h1 _ h3, m, hm, h => by
    rw [directFields, List.mem_append]
    rcases List.mem_cons.1 hm with rfl | hm
    · exact .inl (holds_direct hw ha h1 h)
    · exact .inr (holds_fields hw ha h3 m hm h)

end

mutual

/-- The same for types mentioned. -/
theorem inside_idents (hw : WellNamed u l) {t : MTy} {e : GoExpr} {a : Str} (ha : TransGen (MentionsStep l) a a) :
    GoTypeOf u l d r t e → Inside l t (.ref a) → goifyName u a ∈ exprIdents e
  | .sequence x y fs hf, h => by
    cases h with
    | sequence _ _ m _ hm h => rw [exprIdents]; exact inside_fields hw ha hf m hm h
  | .set x y fs hf, h => by
    cases h with
    | set _ _ m _ hm h => rw [exprIdents]; exact inside_fields hw ha hf m hm h
  | .sequenceOf t e h, hh => by cases hh with | sequenceOf _ _ hh => rw [exprIdents]; exact inside_idents hw ha h hh
  | .setOf t e h, hh => by cases hh with | setOf _ _ hh => rw [exprIdents]; exact inside_idents hw ha h hh
  | .tagged g t k b e h, hh => by cases hh with | tagged _ _ _ _ _ hh => exact inside_idents hw ha h hh
  | .constrained t c e h, hh => by cases hh with | constrained _ _ _ hh => exact inside_idents hw ha h hh
  | .onlyChoice n t ext e _ h, hh => by cases hh with | choice _ _ _ _ _ hh => exact inside_idents hw ha h hh
  | .choice alts ext h1 h2, hh => by cases hh with | choice _ _ _ _ _ hh => simp at h2
  | .rawChoice alts ext h1, hh => by
    cases hh with
    | choice n t _ _ hn hh =>
      obtain ⟨n', t', hm, hat⟩ := h1
      simp only [List.mem_singleton, NamedType.mk.injEq] at hm
      obtain ⟨rfl, rfl⟩ := hm
      exact absurd hat hn
  | .time b c s h1 h2, hh => by
    cases hh
    have := cycle_ref (S := MentionsStep l) (Q := fun t x => Inside l t (.ref x)) (d := d) (r := r) hw (fun ⟨t, h1, _, _, h2, _⟩ => ⟨t, h1, h2⟩)
      (fun hc h => inside_core hc h) (fun h => by cases h; rfl) (fun h => by cases h) (fun h => by cases h)
      (fun ⟨_, _, _, _, _, h⟩ => h) ha (.time _ c s h1 h2)
    rw [this]
    simp [exprIdents]
  | .bits b c s nb h1 h2 h3, hh => by
    cases hh
    have := cycle_ref (S := MentionsStep l) (Q := fun t x => Inside l t (.ref x)) (d := d) (r := r) hw (fun ⟨t, h1, _, _, h2, _⟩ => ⟨t, h1, h2⟩)
      (fun hc h => inside_core hc h) (fun h => by cases h; rfl) (fun h => by cases h) (fun h => by cases h)
      (fun ⟨_, _, _, _, _, h⟩ => h) ha (.bits _ c s nb h1 h2 h3)
    rw [this]
    simp [exprIdents]
  | .ref b c s h1 h2 h3, hh => by cases hh; simp [exprIdents]

theorem inside_fields (hw : WellNamed u l) {xs : List Member} {fs : List GoField} {a : Str}
    (ha : TransGen (MentionsStep l) a a) : FieldsOf u l d r xs fs → ∀ m ∈ xs, Inside l m.type (.ref a) → goifyName u a ∈ fieldIdents fs
  | .nil, m, hm, _ => by simp at hm
  | .cons x xs e tag fs h1 _ h3, m, hm, h => by
    rw [fieldIdents, List.mem_append]
    rcases List.mem_cons.1 hm with rfl | hm
    · exact .inl (inside_idents hw ha h1 h)
    · exact .inr (inside_fields hw ha h3 m hm h)

end

/-- Only SEQUENCE and SET types are translated to structs. -/
theorem struct_like_of {t : MTy} {e : GoExpr} {fs : List GoField} : GoTypeOf u l d r t e → e = .struct fs → StructLike l t
  | .sequence a b _ _, _ => .sequence a b
  | .set a b _ _, _ => .set a b
  | .tagged _ _ _ _ _ h, he => .tagged _ _ _ _ (struct_like_of h he)
  | .constrained _ _ _ h, he => .constrained _ _ (struct_like_of h he)
  | .onlyChoice _ _ _ _ hn h, he => .choice _ _ _ hn (struct_like_of h he)

/-- A cycle of types that hold values of the next is one of Go types. -/
theorem size_cycle {f : GoFile} {dl : List GoDecl} (hdl : DeclsFor u l d r l dl) (hsub : dl ⊆ f.decls) (hw : WellNamed u l)
    {a : Str} (ha : TransGen (HoldsStep l) a a) : TransGen (SizeStep f) (goifyName u a) (goifyName u a) := by
  have own : ∀ {b}, TransGen (HoldsStep l) b b → ∃ s, Declares f s ∧ s.name = goifyName u b := by
    intro b hb
    obtain ⟨c, ⟨t, hm, -⟩, -⟩ := TransGen.head'_iff.1 hb
    obtain ⟨dc, v, hd, -, hty, -⟩ := decls_type hdl hm
    cases hty with
    | struct fs _ _ => exact ⟨_, ⟨_, hsub hd, List.mem_singleton.2 rfl⟩, rfl⟩
    | «alias» e _ _ _ => exact ⟨_, ⟨_, hsub hd, List.mem_singleton.2 rfl⟩, rfl⟩
    | set e _ _ => exact ⟨_, ⟨_, hsub hd, List.mem_cons_of_mem _ (List.mem_singleton.2 rfl)⟩, rfl⟩
  refine cycle_lift (g := goifyName u) (fun b c hbc hb hc => ?_) ha
  obtain ⟨t, hm, hh, -⟩ := hbc
  obtain ⟨dc, v, hd, -, hty, -⟩ := decls_type hdl hm
  cases hty with
  | struct fs _ he => exact .single ⟨⟨_, ⟨_, hsub hd, List.mem_singleton.2 rfl⟩, rfl, holds_direct hw hc he hh⟩, own hc⟩
  | «alias» e _ he _ => exact .single ⟨⟨_, ⟨_, hsub hd, List.mem_singleton.2 rfl⟩, rfl, holds_direct hw hc he hh⟩, own hc⟩
  | set e _ he =>
    have h1 : Declares f ⟨goifyName u b ++ c! "SET", false, e⟩ := ⟨_, hsub hd, by simp⟩
    have h2 : Declares f ⟨goifyName u b, true, .ident (goifyName u b ++ c! "SET")⟩ := ⟨_, hsub hd, by simp⟩
    exact .head ⟨⟨_, h2, rfl, by simp [directIdents]⟩, _, h1, rfl⟩ (.single ⟨⟨_, h1, rfl, holds_direct hw hc he hh⟩, own hc⟩)

/-- A cycle of types without a Go type of their own is one of aliases. -/
theorem alias_cycle {f : GoFile} {dl : List GoDecl} (hdl : DeclsFor u l d r l dl) (hsub : dl ⊆ f.decls) (hw : WellNamed u l)
    {a : Str} (ha : TransGen (MentionsStep l) a a) : TransGen (AliasStep f) (goifyName u a) (goifyName u a) := by
  have own : ∀ {b t}, .type b t ∈ l → ¬ MarksSet l t → ¬ StructLike l t → ∃ e, GoTypeOf u l d r t e ∧ Declares f ⟨goifyName u b, true, e⟩ := by
    intro b t hm h1 h2
    obtain ⟨dc, v, hd, -, hty, -⟩ := decls_type hdl hm
    cases hty with
    | struct fs _ he => exact absurd (struct_like_of he rfl) h2
    | «alias» e _ he _ => exact ⟨e, he, _, hsub hd, List.mem_singleton.2 rfl⟩
    | set e hs _ => exact absurd hs h1
  refine cycle_lift (g := goifyName u) (fun b c hbc hb hc => ?_) ha
  obtain ⟨t, hm, h1, h2, hh, -⟩ := hbc
  obtain ⟨e, he, hde⟩ := own hm h1 h2
  obtain ⟨c', ⟨t', hm', h1', h2', -⟩, -⟩ := TransGen.head'_iff.1 hc
  obtain ⟨e', -, hde'⟩ := own hm' h1' h2'
  exact .single ⟨⟨_, hde, rfl, rfl, inside_idents hw hc he hh⟩, _, hde', rfl, rfl⟩

/-! ### Names -/

/-- If no two things get the same name, no type is named like a SET type followed by `SET`. -/
theorem namesApart_set (hw : WellNamed u l) (h : NamesApart u l) : NoSetClash l := by
  intro r t hm hs hmem
  have h1 := hw.typeName _ hmem
  have h2 := hw.typeName _ (mem_typeNames hm)
  have := h (.ty (r ++ c! "SET")) (.set r) hmem ⟨t, hm, hs⟩ (by
    rw [Origin.name, Origin.name, goify_upper h1, goify_upper h2, List.map_append]
    rfl)
  cases this

/-! ### Initial values -/

/-- A REAL type is no pointer in Go. -/
theorem real_no_star (hw : WellNamed u l) (hs : NoSetClash l) {f : GoFile} (hf : ∀ s, Declares f s → SpecFor u l d r l s) {t : MTy} (h : TypeIs l t c)
    : c = .real → ∀ {e x : GoExpr}, GoTypeOf u l d r t e → ¬ Denotes f e (.star x) := by
  induction h with
  | core t c hc _ =>
    rintro rfl e x hg hd
    cases goType_core hc hg
    cases hd with
    | «alias» _ _ _ hd _ => exact (spec_name hw (hf _ hd)).1 (show c! "float64" ∈ predeclared by decide)
  | ref t t' c a hc ha _ ih =>
    rintro rfl e x hg hd
    have dotted : ∀ {n : Str}, '.' ∈ n → ¬ Denotes f (.ident n) (.star x) := by
      intro n hn hd
      cases hd with
      | «alias» _ _ _ hd _ => exact (spec_name hw (hf _ hd)).2 hn
    have hg' := goType_core hc hg
    cases hg' with
    | time => exact dotted (by decide) hd
    | bits => exact dotted (by decide) hd
    | ref =>
      cases hd with
      | «alias» _ e' _ hd hx =>
        have hn : NameFor u l (goifyName u a) a := ⟨mem_typeNames (List.mem_of_find?_eq_some ha), .inl rfl⟩
        generalize hspec : (⟨goifyName u a, true, e'⟩ : GoTypeSpec) = sp at hd
        cases hf _ hd with
        | struct n t fs h1 h2 h3 => simp at hspec
        | set n t e h1 h2 h3 => simp at hspec
        | «alias» n t e h1 h2 h3 h4 =>
          obtain ⟨hna, -, rfl⟩ : goifyName u a = goifyName u n ∧ True ∧ e' = e := by simpa using hspec
          have := nameFor_unique hw hs hn ⟨mem_typeNames h1, .inl hna⟩
          subst this
          rw [assigned_unique (assigned_of_mem hw h1) ha] at h3
          exact ih rfl h3 hx
        | setAlias n t h1 h2 =>
          obtain ⟨hna, -, rfl⟩ : goifyName u a = goifyName u n ∧ True ∧ e' = .ident (goifyName u n ++ c! "SET") := by simpa using hspec
          have := nameFor_unique hw hs hn ⟨mem_typeNames h1, .inl hna⟩
          subst this
          cases hx with
          | «alias» _ e' _ hd' hx' =>
            have hset : NameFor u l (goifyName u a ++ c! "SET") a := ⟨hn.1, .inr ⟨rfl, t, h1, h2⟩⟩
            have no : ∀ {m : Str}, m ∈ typeNames l → goifyName u a ++ c! "SET" ≠ goifyName u m := by
              intro m hm he
              have := nameFor_unique hw hs hset ⟨hm, .inl he⟩
              subst this
              exact absurd (congrArg List.length he) (by simp)
            generalize hspec : (⟨goifyName u a ++ c! "SET", true, e'⟩ : GoTypeSpec) = sp at hd'
            cases hf _ hd' with
            | struct n t fs h1 h2 h3 => simp at hspec
            | set n t e h1 h2 h3 => simp at hspec
            | «alias» n t e h1 h2 h3 h4 => exact no (mem_typeNames h1) (by simpa using congrArg GoTypeSpec.name hspec)
            | setAlias n t h1 h2 => exact no (mem_typeNames h1) (by simpa using congrArg GoTypeSpec.name hspec)

/-- A type that is a reference taken for a time is `time.Time` in Go, which no file declares. -/
theorem timeTyped_go (hw : WellNamed u l) {f : GoFile} (hf : ∀ s, Declares f s → SpecFor u l d r l s) {t : MTy} {e x : GoExpr} (h : TimeTyped l t)
    (hg : GoTypeOf u l d r t e) (hd : Denotes f e x) : x = .ident (c! "time.Time") := by
  obtain ⟨a, hc, b, s, hr, hn⟩ := h
  have hg' := goType_core hc hg
  cases hg' with
  | time =>
    cases hd with
    | here => rfl
    | «alias» _ _ _ hd _ => exact absurd (show '.' ∈ c! "time.Time" by decide) (spec_name hw (hf _ hd)).2
  | bits _ b' s' nb h1 h2 h3 =>
    obtain ⟨rfl, rfl⟩ := resolves_unique h1 hr
    exact absurd hn h2
  | ref _ b' s' h1 h2 h3 =>
    obtain ⟨rfl, rfl⟩ := resolves_unique h1 hr
    exact absurd hn h2

end Asn1go.CG
