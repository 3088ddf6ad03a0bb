import Verif.Spec.Encodable
import Verif.Proofs.Codegen.Check2

/-! Values of generated Go types, against the types of the module. -/

namespace Asn1go.Enco

open Asn1go Spec CG

variable {u : Casing} {l : List MAssignment} {d : Int} {r : Str} {f : GoFile} {strict : Bool} {op : Open} {s : Str → Prop}

/-- A generated file, a module with ASN.1 names, and names of types that are encoded as they should. -/
structure Ctx (u : Casing) (l : List MAssignment) (d : Int) (r : Str) (f : GoFile) (strict : Bool) (op : Open) (s : Str → Prop) : Prop where
  decls : ∃ dl, DeclsFor u l d r l dl ∧ dl ⊆ f.decls
  spec : ∀ x, Declares f x → SpecFor u l d r l x
  named : WellNamed u l
  noSetClash : NoSetClash l
  noTime : ∀ a ∈ typeNames l, ¬ TimeName a
  members : ∀ a t, .type a t ∈ l → MembersNamed u l t
  closed : ∀ b, s b → ∃ t, Assigned l b t ∧ EncOk strict op l d r s .assignment t

/-! ### Types that are encoded as they should -/

theorem assigned_mem {a : Str} {t : MTy} (h : Assigned l a t) : .type a t ∈ l := List.mem_of_find?_eq_some h

theorem type_unique (hw : WellNamed u l) {a : Str} {t t' : MTy} (h : .type a t ∈ l) (h' : .type a t' ∈ l) : t = t' := by
  have hn := hw.types
  clear hw
  induction l with
  | nil => simp at h
  | cons x l ih =>
    cases x with
    | type n t0 =>
      simp only [typeNames, List.filterMap_cons, List.nodup_cons] at hn
      rcases List.mem_cons.1 h with h1 | h1 <;> rcases List.mem_cons.1 h' with h2 | h2
      · cases h1; cases h2; rfl
      · cases h1; exact (hn.1 (mem_typeNames h2)).elim
      · cases h2; exact (hn.1 (mem_typeNames h1)).elim
      · exact ih h1 h2 hn.2
    | value n t0 v =>
      simp only [typeNames, List.filterMap_cons] at hn
      exact ih (by simpa using h) (by simpa using h') hn
    | nil =>
      simp only [typeNames, List.filterMap_cons] at hn
      exact ih (by simpa using h) (by simpa using h') hn

theorem encOk_core {pos : Position} {t c : MTy} (hc : Core t c) (h : EncOk strict op l d r s pos t) : EncOk strict op l d r s pos c := by
  induction hc with
  | tagged g t c k b _ _ => simp [EncOk] at h
  | constrained t c x _ ih => exact ih (by simpa [EncOk] using h)
  | done t _ _ => exact h

theorem leaf_ok (cx : Ctx u l d r f strict op s) {a b : Str} {t : MTy} (h : Leaf l a b t) (ha : s a) :
    s b ∧ Assigned l b t ∧ EncOk strict op l d r s .assignment t := by
  induction h with
  | «alias» a c b t hac _ ih =>
    obtain ⟨t', h1, h2⟩ := hac
    obtain ⟨t'', h3, h4⟩ := cx.closed a ha
    cases assigned_unique h1 h3
    have := encOk_core h2 h4
    simp only [EncOk] at this
    rcases this with h | ⟨h, _⟩
    · exact ih h
    · cases h
  | assigned a t c h1 h2 _ =>
    obtain ⟨t', h3, h4⟩ := cx.closed a ha
    cases assigned_unique h1 h3
    exact ⟨ha, h1, h4⟩
  | unassigned a h =>
    obtain ⟨t', h3, -⟩ := cx.closed a ha
    exact absurd h3 (h t')

theorem resolves_ok (cx : Ctx u l d r f strict op s) {a b : Str} {t : MTy} (h : Resolves l a b t) (ha : s a) :
    s b ∧ Assigned l b t ∧ EncOk strict op l d r s .assignment t := by
  cases h with
  | assigned _ _ h _ => exact leaf_ok cx h ha
  | generalizedTime h =>
    obtain ⟨-, h2, -⟩ := leaf_ok cx h ha
    exact absurd (.inl rfl) (cx.noTime _ (mem_typeNames (assigned_mem h2)))

theorem ok_not_time (cx : Ctx u l d r f strict op s) {a : Str} (ha : s a) : ¬ TimeName a := by
  obtain ⟨t, h, -⟩ := cx.closed a ha
  exact cx.noTime _ (mem_typeNames (assigned_mem h))

theorem ok_not_tagged (cx : Ctx u l d r f strict op s) {t : MTy} (h : AltTagged l t) : ∀ {pos : Position}, pos ≠ .component →
    ¬ EncOk strict op l d r s pos t := by
  induction h with
  | tagged g t k b => intro pos _ h; simp [EncOk] at h
  | constrained t x _ ih => intro pos hp h; exact ih hp (by simpa [EncOk] using h)
  | ref a b t _ hr _ ih =>
    intro pos hp h
    simp only [EncOk] at h
    rcases h with h | ⟨h, -⟩
    · exact ih (by decide) (resolves_ok cx hr h).2.2
    · exact hp h

theorem choice_ok {alts : List MNamed} {e : List MTy} {pos : Position} (h : EncOk strict op l d r s pos (.choice alts e)) (hn : ¬ SomeTagged l alts) :
    EncOkOnly strict op l d r s alts := by
  rw [EncOk] at h
  exact h.resolve_left fun h => hn h.2.1

theorem some_tagged {n : Str} {t : MTy} (h : ¬ AltTagged l t) : ¬ SomeTagged l [.mk n t] := by
  rintro ⟨n', t', hm, ht⟩
  simp at hm
  exact h (hm.2 ▸ ht)

theorem only_ok {n : Str} {t : MTy} {e : List MTy} {pos : Position} (h : EncOk strict op l d r s pos (.choice [.mk n t] e)) (hn : ¬ AltTagged l t) :
    EncOk strict op l d r s .element t := by
  simpa [EncOkOnly] using choice_ok h (some_tagged hn)

theorem ok_not_marks {t : MTy} (h : MarksSet l t) : ¬ EncOk strict op l d r s .element t := by
  induction h with
  | set a b => intro h; simp [EncOk] at h
  | setOf t => intro h; simp [EncOk] at h
  | sequenceOf t _ ih => intro h; exact ih (by simpa [EncOk] using h)
  | tagged g t k b _ _ => intro h; simp [EncOk] at h
  | constrained t x _ ih => intro h; exact ih (by simpa [EncOk] using h)
  | choice n t e hn _ ih => intro h; exact ih (only_ok h hn)

/-! ### Declarations of names -/

theorem goify_ne_set (a : Str) : goifyName u a ≠ goifyName u a ++ c! "SET" := fun h => by
  have := congrArg List.length h
  simp at this

theorem declares_for (cx : Ctx u l d r f strict op s) {a : Str} {t : MTy} (ha : Assigned l a t) {b : Bool} {e : GoExpr}
    (h : Declares f ⟨goifyName u a, b, e⟩) :
    (¬ MarksSet l t ∧ GoTypeOf u l d r t e ∧ (b = false → ∃ fs, e = .struct fs)) ∨
      (b = true ∧ MarksSet l t ∧ e = .ident (goifyName u a ++ c! "SET")) := by
  have hm := assigned_mem ha
  have huniq : ∀ {n t'}, Assignment.type n t' ∈ l → goifyName u n = goifyName u a → n = a ∧ t' = t := by
    intro n t' hn he
    have : n = a := goify_upper_inj (cx.named.typeName n (mem_typeNames hn)) (cx.named.typeName a (mem_typeNames hm)) he
    subst this
    exact ⟨rfl, type_unique cx.named hn hm⟩
  have hs := cx.spec _ h
  generalize hn : goifyName u a = n at hs
  cases hs with
  | struct n t' fs h1 h2 h3 =>
    obtain ⟨rfl, rfl⟩ := huniq h1 hn.symm
    exact .inl ⟨h2, h3, fun _ => ⟨_, rfl⟩⟩
  | «alias» n t' e h1 h2 h3 h4 =>
    obtain ⟨rfl, rfl⟩ := huniq h1 hn.symm
    exact .inl ⟨h2, h3, fun h => by cases h⟩
  | set n t' e h1 h2 h3 =>
    have hn' : NameFor u l (goifyName u n ++ c! "SET") n := ⟨mem_typeNames h1, .inr ⟨rfl, t', h1, h2⟩⟩
    have ha' : NameFor u l (goifyName u n ++ c! "SET") a := ⟨mem_typeNames hm, .inl hn.symm⟩
    cases nameFor_unique cx.named cx.noSetClash hn' ha'
    exact absurd hn (goify_ne_set _)
  | setAlias n t' h1 h2 =>
    obtain ⟨rfl, rfl⟩ := huniq h1 hn.symm
    exact .inr ⟨rfl, h2, rfl⟩

theorem declares_set (cx : Ctx u l d r f strict op s) {a : Str} {t : MTy} (ha : Assigned l a t) (hk : MarksSet l t) {b : Bool} {e : GoExpr}
    (h : Declares f ⟨goifyName u a ++ c! "SET", b, e⟩) : b = false ∧ GoTypeOf u l d r t e := by
  have hm := assigned_mem ha
  have ha' : NameFor u l (goifyName u a ++ c! "SET") a := ⟨mem_typeNames hm, .inr ⟨rfl, t, hm, hk⟩⟩
  have hs := cx.spec _ h
  generalize hn : goifyName u a ++ c! "SET" = n at hs ha'
  cases hs with
  | struct n t' fs h1 h2 h3 =>
    cases nameFor_unique cx.named cx.noSetClash ⟨mem_typeNames h1, .inl rfl⟩ ha'
    exact absurd hn.symm (goify_ne_set _)
  | «alias» n t' e h1 h2 h3 h4 =>
    cases nameFor_unique cx.named cx.noSetClash ⟨mem_typeNames h1, .inl rfl⟩ ha'
    exact absurd hn.symm (goify_ne_set _)
  | set n t' e h1 h2 h3 =>
    cases nameFor_unique cx.named cx.noSetClash ⟨mem_typeNames h1, .inr ⟨rfl, t', h1, h2⟩⟩ ha'
    cases type_unique cx.named h1 hm
    exact ⟨rfl, h3⟩
  | setAlias n t' h1 h2 =>
    cases nameFor_unique cx.named cx.noSetClash ⟨mem_typeNames h1, .inl rfl⟩ ha'
    exact absurd hn.symm (goify_ne_set _)

theorem not_declared (cx : Ctx u l d r f strict op s) {n : Str} {b : Bool} {e : GoExpr} (h : Declares f ⟨n, b, e⟩) : n ∉ predeclared ∧ '.' ∉ n :=
  spec_name cx.named (cx.spec _ h)

theorem goify_not_special (cx : Ctx u l d r f strict op s) {a : Str} {t : MTy} (ha : Assigned l a t) (suffix : Str) (hd : '.' ∉ suffix) :
    goifyName u a ++ suffix ∉ predeclared ∧ '.' ∉ goifyName u a ++ suffix :=
  goify_upper_name (cx.named.typeName a (mem_typeNames (assigned_mem ha))) suffix hd

/-! ### Values of named types -/

/-- What values of a declared type are. -/
theorem typed_name {n : Str} {v : GoVal} (hp : n ∉ predeclared) (hd : '.' ∉ n) (h : Typed f (.ident n) v) :
    (∃ e, Declares f ⟨n, true, e⟩ ∧ Typed f e v) ∨ ∃ e v0, Declares f ⟨n, false, e⟩ ∧ Typed f e v0 ∧ v = v0.named n := by
  cases h with
  | bool => exact absurd (by decide) hp
  | int64 => exact absurd (by decide) hp
  | float64 => exact absurd (by decide) hp
  | string => exact absurd (by decide) hp
  | bits => exact absurd (by decide) hd
  | enumerated => exact absurd (by decide) hd
  | oid => exact absurd (by decide) hd
  | time => exact absurd (by decide) hd
  | raw => exact absurd (by decide) hd
  | «alias» _ e _ h1 h2 => exact .inl ⟨e, h1, h2⟩
  | defined _ e v h1 h2 => exact .inr ⟨e, v, h1, h2, rfl⟩

/-- `v` is a value of the Go type `e` of the type `t` in a position; for assigned SET types it has a name with `SET`. -/
def TypedAt (l : List MAssignment) (f : GoFile) (pos : Position) (t : MTy) (e : GoExpr) (v : GoVal) : Prop :=
  (pos = .assignment ∧ MarksSet l t → ∃ v0 n, Typed f e v0 ∧ v = v0.named (n ++ c! "SET")) ∧
    (¬ (pos = .assignment ∧ MarksSet l t) → Typed f e v)

theorem typedAt_not {pos : Position} {t : MTy} {e : GoExpr} {v : GoVal} (h : TypedAt l f pos t e v) (hm : pos ≠ .assignment ∨ ¬ MarksSet l t) :
    Typed f e v := by
  refine h.2 fun hc => ?_
  rcases hm with hm | hm
  · exact hm hc.1
  · exact hm hc.2

theorem typedAt_of {pos : Position} {t : MTy} {e : GoExpr} {v : GoVal} (h : Typed f e v) (hm : pos ≠ .assignment ∨ ¬ MarksSet l t) :
    TypedAt l f pos t e v := by
  refine ⟨fun hc => ?_, fun _ => h⟩
  rcases hm with hm | hm
  · exact absurd hc.1 hm
  · exact absurd hc.2 hm

/-- The values of the type with the Go name of an assigned type. -/
theorem typed_assigned (cx : Ctx u l d r f strict op s) {a : Str} {t : MTy} (ha : Assigned l a t) {v : GoVal}
    (h : Typed f (.ident (goifyName u a)) v) : ∃ e, GoTypeOf u l d r t e ∧ TypedAt l f .assignment t e v := by
  have hsp := goify_not_special cx ha [] (by simp)
  rw [List.append_nil] at hsp
  rcases typed_name hsp.1 hsp.2 h with ⟨e, h1, h2⟩ | ⟨e, v0, h1, h2, rfl⟩
  · rcases declares_for cx ha h1 with ⟨h3, h4, -⟩ | ⟨-, h3, rfl⟩
    · exact ⟨e, h4, typedAt_of h2 (.inr h3)⟩
    · have hsp := goify_not_special cx ha (c! "SET") (by decide)
      rcases typed_name hsp.1 hsp.2 h2 with ⟨e, h4, h5⟩ | ⟨e, v0, h4, h5, rfl⟩
      · exact absurd (declares_set cx ha h3 h4).1 (by simp)
      · refine ⟨e, (declares_set cx ha h3 h4).2, ?_⟩
        exact ⟨fun _ => ⟨_, _, h5, rfl⟩, fun h => absurd ⟨rfl, h3⟩ h⟩
  · rcases declares_for cx ha h1 with ⟨h3, h4, h5⟩ | ⟨h, -, -⟩
    · obtain ⟨fs, rfl⟩ := h5 rfl
      cases h2 with
      | struct _ vs h6 => exact ⟨_, h4, typedAt_of (.struct _ _ h6) (.inr h3)⟩
    · cases h

/-- A type that is BIT STRING behind its references is so in Go. -/
theorem bits_type {a b : Str} {t t' : MTy} {nb : List (NamedBit DefinedValue)} (hl : Leaf l a b t') (hb : ¬ TimeName b) (hn : t' ≠ .nil)
    (hc : Core t' (.bitString nb)) (ha : Assigned l a t) {e : GoExpr} (h : GoTypeOf u l d r t e) : e = .ident (c! "asn1.BitString") := by
  cases hl with
  | «alias» _ c _ _ hac hl =>
    obtain ⟨t1, h1, h2⟩ := hac
    cases assigned_unique h1 ha
    have hres : Resolves l c b t' := .assigned _ _ _ hl hn
    cases goType_core h2 h with
    | time _ b' s1 h3 h4 =>
      obtain ⟨rfl, rfl⟩ := resolves_unique h3 hres
      exact absurd h4 hb
    | bits => rfl
    | ref _ b' s1 h3 h4 h5 =>
      obtain ⟨rfl, rfl⟩ := resolves_unique h3 hres
      exact absurd hc (h5 nb)
  | assigned _ _ c h1 h2 h3 =>
    cases assigned_unique h1 ha
    cases goType_core hc h with
    | bitString => rfl
  | unassigned _ h => exact absurd rfl hn

/-- The values of a reference to an assigned type are those of the type. -/
theorem typed_ref (cx : Ctx u l d r f strict op s) {a : Str} (ha : s a) {e : GoExpr} {v : GoVal} (hg : GoTypeOf u l d r (.ref a) e) (h : Typed f e v) :
    ∃ t e', Assigned l a t ∧ GoTypeOf u l d r t e' ∧ TypedAt l f .assignment t e' v := by
  obtain ⟨t, hat, hok⟩ := cx.closed a ha
  cases hg with
  | time _ b t' h1 h2 => exact absurd h2 (ok_not_time cx (resolves_ok cx h1 ha).1)
  | bits _ b t' nb h1 h2 h3 =>
    obtain ⟨dl, hdl, -⟩ := cx.decls
    obtain ⟨dc, v', hm, -, hty, -⟩ := decls_type hdl (assigned_mem hat)
    have hleaf : Leaf l a b t' ∧ t' ≠ .nil := by
      cases h1 with
      | assigned _ _ h hn => exact ⟨h, hn⟩
      | generalizedTime => exact absurd (.inl rfl) h2
    have hnm : ¬ MarksSet l t := by
      intro hmk
      have hc' : ∃ c, Core t c ∧ ((∃ b, c = .ref b) ∨ c = .bitString nb) := by
        cases hleaf.1 with
        | «alias» _ c _ _ hac _ =>
          obtain ⟨t1, h4, h5⟩ := hac
          cases assigned_unique h4 hat
          exact ⟨_, h5, .inl ⟨_, rfl⟩⟩
        | assigned _ _ c h4 h5 h6 =>
          cases assigned_unique h4 hat
          exact ⟨_, h3, .inr rfl⟩
        | unassigned _ h => exact absurd rfl hleaf.2
      obtain ⟨c, h4, h5⟩ := hc'
      refine not_marks h4 ?_ ?_ ?_ ?_ hmk <;> rcases h5 with ⟨b, rfl⟩ | rfl <;> intros <;> simp
    cases hty with
    | struct fs _ he =>
      have := bits_type hleaf.1 h2 hleaf.2 h3 hat he
      cases this
    | «alias» e _ he hn =>
      cases bits_type hleaf.1 h2 hleaf.2 h3 hat he
      exact ⟨t, _, hat, he, typedAt_of h (.inr hnm)⟩
    | set e hmk _ => exact absurd hmk hnm
  | ref _ b t' h1 h2 h3 =>
    obtain ⟨e', h4, h5⟩ := typed_assigned cx hat h
    exact ⟨t, e', hat, h4, h5⟩

end Asn1go.Enco
