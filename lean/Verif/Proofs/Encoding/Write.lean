import Verif.Proofs.Encoding.Typed2

/-! Go values for abstract values. -/

namespace Asn1go.Enco

open Asn1go Spec CG

variable {u : Casing} {l : List MAssignment} {d : Int} {r : Str} {f : GoFile} {strict : Bool} {op : Open} {s : Str → Prop} {B : Held}

/-! ### Names -/

/-- A predeclared name is not declared anew. -/
theorem predeclared_not (hw : WellNamed u l) {ds : List GoDecl} (h : DeclsFor u l d r l ds) {n : Str} (hn : n ∈ predeclared) : n ∉ declared ds := by
  intro hm
  obtain ⟨o, rfl, ho⟩ := declared_origin h n hm
  have hup : ∀ a, a ∈ typeNames l → ∀ t, goifyName u a ++ t ∉ predeclared := by
    intro a ha t hm
    obtain ⟨c, cs, h1, -⟩ := (hw.typeName a ha).word.letter
    have hn := (hw.typeName a ha)
    subst h1
    have hu : u.isUpper c = true := by simpa using hn.upper
    have hca := hn.ascii c (by simp)
    rw [goify_word hn.word, toTitle_upper hca hu] at hm
    rw [u.upper_ascii c hca] at hu
    have : ∀ s ∈ predeclared, ∀ c cs, s = c :: cs → ¬ (65 ≤ c.toNat ∧ c.toNat ≤ 90) := by
      intro s hs c cs hcs
      subst hcs
      simp only [predeclared, List.mem_cons, List.cons.injEq, List.not_mem_nil, or_false] at hs
      rcases hs with h | h | h | h | h <;> rw [h.1] <;> decide
    exact this _ hm _ _ rfl (by simpa using hu)
  cases o with
  | ty a => exact hup a ho [] (by simpa [Origin.name] using hn)
  | set a => obtain ⟨t, h1, -⟩ := ho; exact hup a (mem_typeNames h1) _ hn
  | num a k => obtain ⟨t, nums, h1, -⟩ := ho; exact hup a (mem_typeNames h1) _ hn
  | val a => simp [Origin.name, predeclared] at hn

theorem leaf_assigned {a b : Str} {t : MTy} (h : Leaf l a b t) (hn : t ≠ .nil) : ∃ t', Assigned l a t' := by
  cases h with
  | «alias» _ c _ _ hac _ => obtain ⟨t', h1, -⟩ := hac; exact ⟨t', h1⟩
  | assigned _ _ _ h1 _ _ => exact ⟨_, h1⟩
  | unassigned _ h => exact absurd rfl hn

theorem resolves_assigned {a b : Str} {t : MTy} (h : Resolves l a b t) (hb : ¬ TimeName b) : ∃ t', Assigned l a t' := by
  cases h with
  | assigned _ _ h hn => exact leaf_assigned h hn
  | generalizedTime => exact absurd (.inl rfl) hb

/-- No type is `byte` in Go. -/
theorem not_byte (hw : WellNamed u l) {t : MTy} {e : GoExpr} (h : GoTypeOf u l d r t e) : e ≠ .ident (c! "byte") := by
  refine GoTypeOf.rec (motive_1 := fun _ e _ => e ≠ .ident (c! "byte")) (motive_2 := fun _ _ _ => True)
    ?_ ?_ ?_ ?_ ?_ ?_ ?_ ?_ ?_ ?_ ?_ ?_ ?_ ?_ ?_ ?_ ?_ ?_ ?_ ?_ ?_ ?_ ?_ ?_ ?_ h
  case refine_20 =>
    intro a b t h1 h2 _ he
    obtain ⟨t', h3⟩ := resolves_assigned h1 h2
    have := (goify_upper_name (hw.typeName a (mem_typeNames (assigned_mem h3))) [] (by simp)).1
    rw [List.append_nil] at this
    rw [GoExpr.ident.inj he] at this
    exact this (by decide)
  all_goals intros; first | assumption | simp

/-! ### References -/

theorem named_zero (v : GoVal) (n : Str) : (v.named n).isZero = v.isZero := by
  cases v <;> simp [GoVal.named, GoVal.isZero]

theorem means_named {t : MTy} {v : GoVal} {x : AsnVal} (h : Means l B t v x) (n : Str) : Means l B t (v.named n) x := by
  refine Means.rec (motive_1 := fun t v x _ => Means l B t (v.named n) x) (motive_2 := fun _ _ _ _ => True) (motive_3 := fun _ _ _ _ => True)
    ?_ ?_ ?_ ?_ ?_ ?_ ?_ ?_ ?_ ?_ ?_ ?_ ?_ ?_ ?_ ?_ ?_ ?_ ?_ ?_ ?_ ?_ ?_ ?_ h
  case refine_1 => exact .boolean
  case refine_2 => exact .integer
  case refine_3 => exact .bigInteger
  case refine_4 => exact .enumerated
  case refine_5 => exact .octetString
  case refine_6 => exact .bitString
  case refine_7 => exact .objectIdentifier
  case refine_8 => exact .string
  case refine_9 => exact .time
  case refine_10 => intro a t v x h _ ih; exact .ref _ _ _ _ h ih
  case refine_11 => intro t c v x _ ih; exact .constrained _ _ _ _ ih
  case refine_12 => intro g t k b v x _ ih; exact .tagged _ _ _ _ _ _ ih
  case refine_13 => intro n t e v x hn _ ih; exact .choice _ _ _ _ _ hn ih
  case refine_14 =>
    intro alts e n' t v w x h0 h1 h2 h3 h4 h5 _
    refine .alternative _ _ _ _ v _ _ h0 h1 h2 h3 ?_ h5
    subst h4
    cases v <;> rfl
  case refine_15 => intro alts e cls tag k b full x h1 h2 h3; exact .raw _ _ _ _ _ _ _ _ h1 h2 h3
  case refine_16 => intro a b fs vs h _; exact .sequence _ _ _ _ h
  case refine_17 => intro a b fs vs h _; exact .set _ _ _ _ h
  case refine_18 => intro t _ z l' vs h _; exact .sequenceOf _ _ _ _ _ h
  case refine_19 => intro t _ z l' vs h _; exact .setOf _ _ _ _ _ h
  all_goals intros; trivial

/-- The type of an assigned type that is a time behind its references. -/
theorem time_type (cx : Ctx u l d r f strict op s) {a b : Str} {t t' : MTy} (hr : Resolves l a b t') (hb : TimeName b) (ha : Assigned l a t) {e : GoExpr}
    (h : GoTypeOf u l d r t e) : e = .ident (c! "time.Time") := by
  obtain ⟨t'', hleaf, hres⟩ : ∃ t'', Leaf l a b t'' ∧ ∀ c, Leaf l c b t'' → Resolves l c b t' := by
    cases hr with
    | assigned _ _ h hn => exact ⟨_, h, fun c hc => .assigned _ _ _ hc hn⟩
    | generalizedTime h => exact ⟨_, h, fun c hc => .generalizedTime _ hc⟩
  cases hleaf with
  | «alias» _ c _ _ hac hl =>
    obtain ⟨t1, h1, h2⟩ := hac
    cases assigned_unique h1 ha
    have hres := hres c hl
    cases goType_core h2 h with
    | time => rfl
    | bits _ b' s1 nb h3 h4 h5 =>
      obtain ⟨rfl, rfl⟩ := resolves_unique h3 hres
      exact absurd hb h4
    | ref _ b' s1 h3 h4 h5 =>
      obtain ⟨rfl, rfl⟩ := resolves_unique h3 hres
      exact absurd hb h4
  | assigned _ _ c h1 h2 h3 => exact absurd hb (cx.noTime _ (mem_typeNames (assigned_mem h1)))
  | unassigned _ h => exact absurd ha (h t)

/-- A value of the Go type of an assigned type gives one of the Go type of references to it. -/
theorem write_ref (cx : Ctx u l d r f strict op s) {a : Str} {t : MTy} (ha : Assigned l a t) {P : GoVal → Prop} (hP : ∀ v n, P v → P (v.named n))
    (h : ∀ e, GoTypeOf u l d r t e → ∃ v, Typed f e v ∧ P v) {e : GoExpr} (hg : GoTypeOf u l d r (.ref a) e ∨ e = .ident (goifyName u a)) :
    ∃ v, Typed f e v ∧ P v := by
  obtain ⟨dl, hdl, hsub⟩ := cx.decls
  obtain ⟨dc, v', hm, -, hty, -⟩ := decls_type hdl (assigned_mem ha)
  have hname : ∃ v, Typed f (.ident (goifyName u a)) v ∧ P v := by
    cases hty with
    | struct fs _ he =>
      obtain ⟨v, h1, h2⟩ := h _ he
      exact ⟨v.named (goifyName u a), .defined _ _ _ ⟨_, hsub hm, List.mem_singleton.2 rfl⟩ h1, hP _ _ h2⟩
    | «alias» e _ he _ =>
      obtain ⟨v, h1, h2⟩ := h _ he
      exact ⟨v, .alias _ _ _ ⟨_, hsub hm, List.mem_singleton.2 rfl⟩ h1, h2⟩
    | set e hk he =>
      obtain ⟨v, h1, h2⟩ := h _ he
      exact ⟨v.named (goifyName u a ++ c! "SET"), .alias _ (.ident (goifyName u a ++ c! "SET")) _ ⟨_, hsub hm, by simp⟩
        (.defined _ _ _ ⟨_, hsub hm, by simp⟩ h1), hP _ _ h2⟩
  obtain ⟨e', he'⟩ : ∃ e', GoTypeOf u l d r t e' := by
    cases hty with
    | struct fs _ he => exact ⟨_, he⟩
    | «alias» e _ he _ => exact ⟨_, he⟩
    | set e _ he => exact ⟨_, he⟩
  rcases hg with hg | rfl
  · cases hg with
    | time _ b t' h1 h2 => have := time_type cx h1 h2 ha he'; subst this; exact h _ he'
    | bits _ b t' nb h1 h2 h3 =>
      have hleaf : Leaf l a b t' ∧ t' ≠ .nil := by
        cases h1 with
        | assigned _ _ h hn => exact ⟨h, hn⟩
        | generalizedTime => exact absurd (.inl rfl) h2
      have := bits_type hleaf.1 h2 hleaf.2 h3 ha he'
      subst this
      exact h _ he'
    | ref => exact hname
  · exact hname

/-! ### Types behind references -/

theorem typeIs_ref {a : Str} {t c : MTy} (ha : Assigned l a t) (h : TypeIs l (.ref a) c) : TypeIs l t c := by
  cases h with
  | core _ _ hc hn => cases hc; exact absurd rfl (hn a)
  | ref _ t' _ b hc hb ht =>
    cases hc
    cases assigned_unique ha hb
    exact ht

theorem typeIs_tagged {g : Tag DefinedValue} {t c : MTy} {k : Int} {b : Bool} (h : TypeIs l (.tagged g t k b) c) : TypeIs l t c := by
  cases h with
  | core _ _ hc hn => cases hc with | tagged _ _ _ _ _ hc => exact .core _ _ hc hn | done _ h _ => exact absurd rfl (h _ _ _ _)
  | ref _ t' _ b hc hb ht => cases hc with | tagged _ _ _ _ _ hc => exact .ref _ _ _ _ hc hb ht

theorem typeIs_constrained {t c : MTy} {y : Constraint DefinedValue (Value DefinedValue)} (h : TypeIs l (.constrained t y) c) : TypeIs l t c := by
  cases h with
  | core _ _ hc hn => cases hc with | constrained _ _ _ hc => exact .core _ _ hc hn | done _ _ h => exact absurd rfl (h _ _)
  | ref _ t' _ b hc hb ht => cases hc with | constrained _ _ _ hc => exact .ref _ _ _ _ hc hb ht

theorem means_of_core {t c : MTy} (hc : Core t c) {v : GoVal} {x : AsnVal} (h : Means l B c v x) : Means l B t v x := by
  induction hc with
  | tagged g t c k b _ ih => exact .tagged _ _ _ _ _ _ (ih h)
  | constrained t c y _ ih => exact .constrained _ _ _ _ (ih h)
  | done t _ _ => exact h

theorem means_of_typeIs {t c : MTy} (ht : TypeIs l t c) {v : GoVal} {x : AsnVal} (h : Means l B c v x) : Means l B t v x := by
  induction ht with
  | core t c hc _ => exact means_of_core hc h
  | ref t t' c a hc ha _ ih => exact means_of_core hc (.ref _ _ _ _ ha (ih h))

/-- Values of a type behind references. -/
theorem write_typeIs (cx : Ctx u l d r f strict op s) {t c : MTy} (ht : TypeIs l t c) {P : GoVal → Prop} (hP : ∀ v n, P v → P (v.named n))
    (h : ∀ e, GoTypeOf u l d r c e → ∃ v, Typed f e v ∧ P v) : ∀ {e : GoExpr}, GoTypeOf u l d r t e → ∃ v, Typed f e v ∧ P v := by
  induction ht with
  | core t c hc _ => intro e hg; exact h e (goType_core hc hg)
  | ref t t' c a hc ha _ ih => intro e hg; exact write_ref cx ha hP (fun e he => ih h he) (.inl (goType_core hc hg))

end Asn1go.Enco
