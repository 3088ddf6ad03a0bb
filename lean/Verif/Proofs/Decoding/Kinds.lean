import Verif.Proofs.Decoding.Found
import Verif.Proofs.Encoding.Encode3
import Verif.Proofs.Encoding.Write2

/-! The kinds of generated Go types, their zero values, and when their elements are missing. -/

namespace Asn1go.Deco

open Asn1go Spec CG Enco

variable {u : Casing} {l : List MAssignment} {d : Int} {r : Str} {f : GoFile} {strict : Bool} {op : Open} {s : Str → Prop}

/-! ### References -/

/-- The name of the type of a value: for assigned SET types one that ends in `SET`. -/
def NameAt (l : List MAssignment) (pos : Position) (t : MTy) (k : GoKind) (n m : Str) : Prop :=
  (pos = .assignment ∧ MarksSet l t → ∃ q, m = q ++ c! "SET") ∧ (¬ (pos = .assignment ∧ MarksSet l t) → m = n ∨ ∃ fs, k = .struct fs)

theorem nameAt_self {pos : Position} {t : MTy} {k : GoKind} {n : Str} (h : pos ≠ .assignment ∨ ¬ MarksSet l t) : NameAt l pos t k n n :=
  ⟨fun hc => h.elim (fun h => absurd hc.1 h) (fun h => absurd hc.2 h), fun _ => .inl rfl⟩

theorem marks_type {t : MTy} (h : MarksSet l t) : ∀ {e : GoExpr}, GoTypeOf u l d r t e → (∃ fs, e = .struct fs) ∨ ∃ e', e = .array e' := by
  induction h with
  | set a b => intro e hg; cases hg; exact .inl ⟨_, rfl⟩
  | setOf t => intro e hg; cases hg; exact .inr ⟨_, rfl⟩
  | sequenceOf t _ _ => intro e hg; cases hg; exact .inr ⟨_, rfl⟩
  | tagged g t k b _ ih => intro e hg; cases hg; exact ih ‹_›
  | constrained t x _ ih => intro e hg; cases hg; exact ih ‹_›
  | choice n t e hn _ ih =>
    intro e hg
    cases hg with
    | rawChoice _ _ h =>
      obtain ⟨n', t', h1, h2⟩ := h
      simp only [List.mem_singleton, NamedType.mk.injEq] at h1
      rw [h1.2] at h2
      exact absurd h2 hn
    | onlyChoice _ _ _ _ _ h => exact ih h
    | choice _ _ _ h => simp at h

/-- The kind of an assigned type gives that of references to it. -/
theorem under_ref (cx : Ctx u l d r f strict op s) {a : Str} {t : MTy} (ha : Assigned l a t) {pos : Position} (hpos : pos = .assignment ∨ ¬ MarksSet l t)
    {P : Str → GoKind → Prop} (hP : ∀ n m fs, P n (.struct fs) → P m (.struct fs))
    (h : ∀ e, GoTypeOf u l d r t e → ∃ n k, Underlies f e n k ∧ (MarksSet l t → k.plain) ∧ ∀ m, NameAt l pos t k n m → P m k) {e : GoExpr}
    (hg : GoTypeOf u l d r (.ref a) e ∨ e = .ident (goifyName u a)) :
    ∃ n k, Underlies f e n k ∧ ∀ m, (m = n ∨ ∃ fs, k = .struct fs) → P m k := by
  obtain ⟨dl, hdl, hsub⟩ := cx.decls
  obtain ⟨dc, v', hm, -, hty, -⟩ := decls_type hdl (assigned_mem ha)
  have hall : ∀ {n k}, P n k → ∀ m, (m = n ∨ ∃ fs, k = .struct fs) → P m k := by
    rintro n k hn m (rfl | ⟨fs, rfl⟩)
    · exact hn
    · exact hP _ _ _ hn
  have hself : ¬ MarksSet l t → ∀ e, GoTypeOf u l d r t e → ∃ n k, Underlies f e n k ∧ ∀ m, (m = n ∨ ∃ fs, k = .struct fs) → P m k := by
    intro hn e he
    obtain ⟨n, k, h1, -, h2⟩ := h e he
    exact ⟨n, k, h1, hall (h2 n (nameAt_self (.inr hn)))⟩
  have hname : ∃ n k, Underlies f (.ident (goifyName u a)) n k ∧ ∀ m, (m = n ∨ ∃ fs, k = .struct fs) → P m k := by
    cases hty with
    | struct fs hn he =>
      obtain ⟨n, k, h1, h2, h3⟩ := h _ he
      cases h1
      exact ⟨_, _, .defined _ _ _ _ ⟨_, hsub hm, List.mem_singleton.2 rfl⟩ (.struct _) trivial, hall (h3 _ ⟨fun hc => absurd hc.2 hn, fun _ => .inr ⟨_, rfl⟩⟩)⟩
    | «alias» e hn he _ =>
      obtain ⟨n, k, h1, h2⟩ := hself hn _ he
      exact ⟨n, k, .alias _ _ _ _ ⟨_, hsub hm, List.mem_singleton.2 rfl⟩ h1, h2⟩
    | set e hk he =>
      obtain ⟨n, k, h1, h2, h3⟩ := h _ he
      refine ⟨goifyName u a ++ c! "SET", k, .alias _ _ (.ident (goifyName u a ++ c! "SET")) _ ⟨_, hsub hm, by simp⟩
        (.defined _ _ _ _ ⟨_, hsub hm, by simp⟩ h1 (h2 hk)), hall (h3 _ ⟨fun _ => ⟨_, rfl⟩, fun hc => absurd ⟨hpos.resolve_right fun hn => hn hk, hk⟩ hc⟩)⟩
  obtain ⟨e', he'⟩ : ∃ e', GoTypeOf u l d r t e' := by
    cases hty with
    | struct fs _ he => exact ⟨_, he⟩
    | «alias» e _ he _ => exact ⟨_, he⟩
    | set e _ he => exact ⟨_, he⟩
  have hident : ∀ {n}, e' = .ident n → ¬ MarksSet l t := by
    rintro n rfl hk
    rcases marks_type hk he' with ⟨_, h⟩ | ⟨_, h⟩ <;> cases h
  rcases hg with hg | rfl
  · cases hg with
    | time _ b t' h1 h2 => have := time_type cx h1 h2 ha he'; subst this; exact hself (hident rfl) _ he'
    | bits _ b t' nb h1 h2 h3 =>
      have hleaf : Leaf l a b t' ∧ t' ≠ .nil := by
        cases h1 with
        | assigned _ _ h hn => exact ⟨h, hn⟩
        | generalizedTime => exact absurd (.inl rfl) h2
      have := bits_type hleaf.1 h2 hleaf.2 h3 ha he'
      subst this
      exact hself (hident rfl) _ he'
    | ref => exact hname
  · exact hname

/-- Position and parameters of the type that a reference refers to. -/
theorem ref_step (cx : Ctx u l d r f strict op s) {a : Str} {t : MTy} (ha : Assigned l a t) {pos : Position} {p : FieldParams}
    (hok : EncOk strict op l d r s pos (.ref a)) (hp : ParamsAt l pos (.ref a) p) :
    ∃ pos', (pos' = .assignment ∨ ¬ MarksSet l t) ∧ EncOk strict op l d r s pos' t ∧ ParamsAt l pos' t p := by
  rw [EncOk] at hok
  rcases hok with h | ⟨rfl, h⟩
  · obtain ⟨t', h4, h5⟩ := cx.closed a h
    cases assigned_unique ha h4
    have hn := params_neutral hp (by simp [core_iff, removeWrapperTypes]) (by simp [core_iff, removeWrapperTypes]) (by simp [core_iff, removeWrapperTypes])
      (by
        intro b c t' hb hl
        simp [core_iff, removeWrapperTypes] at hb
        subst hb
        exact ok_not_time cx (leaf_ok cx hl h).1)
    exact ⟨.assignment, .inl rfl, h5, neutral_at hn (by decide)⟩
  · cases h with
    | here h => exact absurd ha (h t)
    | ref _ b t' h1 h2 h3 =>
      cases assigned_unique h1 ha
      have hc : Core t (.ref b) := core_unconstrained h2 (by simp)
      have hleaf : ∀ {x t'}, Leaf l a x t' ↔ Leaf l b x t' := by
        intro x t'
        constructor
        · intro h
          obtain ⟨rfl, rfl⟩ := leaf_unique h (.alias _ _ _ _ ⟨t, ha, hc⟩ (timeRef_leaf h3))
          exact timeRef_leaf h3
        · exact fun h => .alias _ _ _ _ ⟨t, ha, hc⟩ h
      have hk := hp.1 rfl
      have hno : ∀ {x : Str} {c : MTy}, (∀ y, c ≠ .ref y) → ¬ Core (.ref x) c := by
        intro x c hn h
        rw [core_iff, removeWrapperTypes] at h
        · exact hn _ h.symm
        all_goals simp
      have hyes : ∀ {x y : Str}, Core (.ref x : MTy) (.ref y) ↔ x = y := by simp [core_iff, removeWrapperTypes]
      have hk' : KindOk l (.ref b) p := by
        refine ⟨?_, ?_, ?_, ?_, hk.strings, ?_, ?_, hk.times, hk.omitEmpty⟩
        · rw [hk.set]; constructor <;> rintro (⟨_, _, h⟩ | ⟨_, h⟩) <;> exact absurd h (hno (by simp))
        · rw [hk.ia5]; constructor <;> intro h <;> exact absurd h (hno (by simp))
        · rw [hk.numeric]; constructor <;> intro h <;> exact absurd h (hno (by simp))
        · rw [hk.utf8]; constructor <;> intro h <;> exact absurd h (hno (by simp))
        · rw [hk.generalized]; simp only [hyes, exists_and_left, exists_eq_left', hleaf]
        · rw [hk.utc]; simp only [hyes, exists_and_left, exists_eq_left', hleaf]
      have hct : ∀ c, Core (.ref b) c ↔ Core t c := by
        intro c
        rw [core_iff] at hc
        rw [core_iff, core_iff, hc, removeWrapperTypes] <;> simp
      exact ⟨.component, .inr (not_marks hc (by simp) (by simp) (by simp) (by simp)), shape_timeRef (.ref _ _ _ h1 h2 h3) ha,
        fun _ => kind_core hk' hct, fun h => absurd rfl h⟩

/-! ### Tags that are taken -/

theorem wire_other {p : FieldParams} {tag : Nat} (h : p.set = false) (h1 : tag ≠ 19) (h2 : tag ≠ 23) (x : Header) : wireTag p tag x = tag := by
  rw [wireTag, if_neg h1, if_neg h2, h]; rfl

theorem wire_set {p : FieldParams} {tag : Nat} (h : p.set = true) (x : Header) : wireTag p tag x = 17 := by
  rw [wireTag, h]; rfl

theorem wire_string {p : FieldParams} (h : p.set = false) {x : Header} (hx : x.cls = 0) : wireTag p 19 x = if x.tag ∈ stringTags then x.tag else 19 := by
  rw [wireTag, if_pos rfl, if_pos hx, h]; rfl

theorem wire_time {p : FieldParams} (h : p.set = false) {x : Header} (hx : x.cls = 0) : wireTag p 23 x = if x.tag = 24 then 24 else 23 := by
  simp [wireTag, h, hx]

theorem params_set {pos : Position} {t : MTy} {p : FieldParams} (h : ParamsAt l pos t p) (h1 : ∀ a b, ¬ Core t (.set a b)) (h2 : ∀ t', ¬ Core t (.setOf t')) :
    p.set = false := by
  by_cases hp : pos = .component
  · cases hs : p.set with
    | false => rfl
    | true =>
      rcases (h.1 hp).set.1 hs with ⟨a, b, h5⟩ | ⟨t', h5⟩
      · exact absurd h5 (h1 _ _)
      · exact absurd h5 (h2 _)
  · exact (h.2 hp).set

/-- Elements with other tags are not taken for a value. -/
def Misses (l : List MAssignment) (d : Int) (t : MTy) (p : FieldParams) (n : Str) (kd : GoKind) : Prop :=
  ∀ g k' c en rest, Encoding g k' c en → g.cls < 4 → g.number ≤ 2147483647 → c.length < 2147483648 → ¬ Takes l t g →
    (HasExplicit d t → (∀ x ∈ tagsAround d t, x.2.2 = TAGS_EXPLICIT → x.1 ≠ CLASS_PRIVATE) ∧ c ++ rest ≠ []) →
    Lacks p n kd (en ++ rest)

/-- The tags that are taken for a type without tags. -/
inductive Taken (l : List MAssignment) (t : MTy) (p : FieldParams) (n : Str) (k : GoKind) : Prop
  | tag (tag : Nat) (comp : Bool) : kindTag n k = some (tag, comp) → (∀ h : Header, h.cls = 0 → wireTag p tag h = h.tag → Takes l t ⟨0, h.tag⟩) → Taken l t p n k
  | raw : k = .raw → InRaw l t → (∀ g, Takes l t g) → Taken l t p n k

theorem Taken.wrap {t t' : MTy} {p : FieldParams} {n : Str} {k : GoKind} (h : Taken l t p n k) (h1 : ∀ g, Takes l t g → Takes l t' g)
    (h2 : InRaw l t → InRaw l t') : Taken l t' p n k := by
  cases h with
  | tag tag comp h3 h4 => exact .tag tag comp h3 fun x hx hw => h1 _ (h4 x hx hw)
  | raw h3 h4 h5 => exact .raw h3 (h2 h4) fun g => h1 _ (h5 g)

/-- Where nothing follows, there is no element. -/
theorem Taken.lacks {t : MTy} {p p' : FieldParams} {n : Str} {k : GoKind} (h : Taken l t p n k) : Lacks p' n k [] := by
  cases h with
  | tag tag comp h3 h4 => exact .tag _ _ _ _ h3 (missing_nil _ _ _)
  | raw h3 h4 h5 => subst h3; exact .raw _ (missing_raw_nil _)

variable (u l d r f strict op s) in
/-- The kind of a type without tags, its zero value, and the tags that are taken. -/
def CoreZero (Q : GoVal → Prop) (t : MTy) : Prop :=
  ∀ pos e p, EncOk strict op l d r s pos t → GoTypeOf u l d r t e → ParamsAt l pos t p →
    ∃ n k, Underlies f e n k ∧ (MarksSet l t → k.plain) ∧ ∀ m, NameAt l pos t k n m → ∃ z, Taken l t p m k ∧
      Zero f m k z ∧ Q z

variable (u l d r f strict op s) in
/-- The same for the type of a component. -/
def FieldZero (Q : GoVal → Prop) (t : MTy) : Prop :=
  ∀ e o df p, EncOkTagged strict op l d r s t → GoTypeOf u l d r t e → TagMeaning l d t o df p →
    ∃ n k z, Underlies f e n k ∧ Zero f n k z ∧ Q z ∧ Misses l d t p n k ∧ Lacks p n k []

theorem meaning_constrained {t : MTy} {c : Constraint DefinedValue (Value DefinedValue)} {o : Bool} {df : Option (Value DefinedValue)} {p : FieldParams}
    (hp : TagMeaning l d (.constrained t c) o df p) : TagMeaning l d t o df p := by
  have hcore : ∀ c', Core (.constrained t c) c' ↔ Core t c' := fun c' => by rw [core_iff, core_iff, removeWrapperTypes]
  exact ⟨hp.optional, hp.dflt, hp.tag, hp.explicit, hp.application, hp.isPrivate, by simpa only [hcore] using hp.set, by simpa only [hcore] using hp.ia5,
        by simpa only [hcore] using hp.numeric, by simpa only [hcore] using hp.utf8, hp.strings, by simpa only [hcore] using hp.generalized,
        by simpa only [hcore] using hp.utc, hp.times, hp.omitEmpty⟩

theorem meaning_plain {t : MTy} {o : Bool} {df : Option (Value DefinedValue)} {p : FieldParams} (hp : TagMeaning l d t o df p) (h : tagsAround d t = []) :
    p.tag = none ∧ p.explicit = false := by
  constructor
  · cases hpt : p.tag with
    | none => rfl
    | some n =>
      obtain ⟨c, k, h5⟩ := (hp.tag n).1 hpt
      rw [h] at h5
      cases h5
  · cases he : p.explicit with
    | false => rfl
    | true =>
      obtain ⟨x, hx, -⟩ := hp.explicit.1 he
      rw [h] at hx
      cases hx

theorem field_zero_of_core {Q : GoVal → Prop} {t : MTy} (h1 : ∀ g t' k b, t ≠ .tagged g t' k b) (h2 : ∀ t' c, t ≠ .constrained t' c)
    (h : CoreZero u l d r f strict op s Q t) : FieldZero u l d r f strict op s Q t := by
  intro e o df p hok hg hp
  have hok' := tagged_core (.done t h1 h2) hok
  obtain ⟨n, k, h3, -, h4⟩ := h .component e p hok' hg ⟨fun _ => kind_of hp, fun h => absurd rfl h⟩
  obtain ⟨z, h5, h6, h7⟩ := h4 n (nameAt_self (.inl (by decide)))
  refine ⟨n, k, z, h3, h6, h7, ?_, h5.lacks⟩
  intro g k' c en rest henc hg1 hg2 hl hnt _
  cases h5 with
  | raw _ _ h8 => exact absurd (h8 g) hnt
  | tag tag comp h5 h8 =>
  obtain ⟨ht, he⟩ := meaning_plain hp (no_tags hok')
  refine .tag _ _ _ _ h5 (missing_plain ht he henc hg1 hg2 hl fun x hx hg0 hxt hw => ?_)
  have := h8 x hx (by rw [hw, hxt])
  rw [hxt] at this
  obtain ⟨gc, gn⟩ := g
  simp only at hg0
  subst hg0
  exact hnt this

theorem core_zero_constrained {Q : GoVal → Prop} (t : MTy) (c : Constraint DefinedValue (Value DefinedValue)) (h : CoreZero u l d r f strict op s Q t) :
    CoreZero u l d r f strict op s Q (.constrained t c) := by
  intro pos e p hok hg hp
  cases hg with
  | constrained _ _ _ hg =>
    obtain ⟨n, k, h1, h2, h3⟩ := h pos e p (by simpa [EncOk] using hok) hg (params_constrained hp)
    refine ⟨n, k, h1, fun hm => h2 (by cases hm with | constrained _ _ h => exact h), fun m hm => ?_⟩
    obtain ⟨z, h5, h6, h7⟩ := h3 m
      ⟨fun h => hm.1 ⟨h.1, .constrained _ _ h.2⟩, fun h => hm.2 fun h' => h ⟨h'.1, by cases h'.2 with | constrained _ _ h => exact h⟩⟩
    exact ⟨z, h5.wrap (fun g => .constrained _ _ _) (.constrained _ _), h6, h7⟩

theorem field_zero_constrained {Q : GoVal → Prop} (t : MTy) (c : Constraint DefinedValue (Value DefinedValue)) (h : FieldZero u l d r f strict op s Q t) :
    FieldZero u l d r f strict op s Q (.constrained t c) := by
  intro e o df p hok hg hp
  cases hg with
  | constrained _ _ _ hg =>
    obtain ⟨n, k, z, h3, h6, h7, h8, h9⟩ := h e o df p (by simpa [EncOkTagged] using hok) hg (meaning_constrained hp)
    refine ⟨n, k, z, h3, h6, h7, ?_, h9⟩
    intro g k' c' en rest henc hg1 hg2 hl hnt hex
    exact h8 g k' c' en rest henc hg1 hg2 hl (fun h => hnt (.constrained _ _ _ h)) (fun h => hex h)

/-- The parameters of a tagged component. -/
theorem meaning_tagged {cls : Int} {n : Nat} {t : MTy} {kind : Int} {b : Bool} {o : Bool} {df : Option (Value DefinedValue)} {p : FieldParams}
    (hcls : cls ∈ [CLASS_CONTEXT_SPECIFIC, CLASS_APPLICATION, CLASS_PRIVATE])
    (hok : EncOk strict op l d r s .component t) (hp : TagMeaning l d (.tagged ⟨cls, .number n⟩ t kind b) o df p) :
    tagsAround d (.tagged ⟨cls, .number n⟩ t kind b) = [(cls, .number n, if b then kind else d)] ∧ p.tag = some (n : Int) ∧
      (p.explicit = true ↔ (if b then kind else d) = TAGS_EXPLICIT) ∧
      (if p.isPrivate then 3 else if p.application then 1 else 2) = classOf cls ∧ (cls ≠ CLASS_PRIVATE → (if p.application then 1 else 2) = classOf cls) ∧
      ParamsAt l .component t p := by
  have htags : tagsAround d (.tagged ⟨cls, .number n⟩ t kind b) = [(cls, .number n, if b then kind else d)] := by rw [tagsAround, no_tags hok]
  have ha : p.application = true ↔ cls = CLASS_APPLICATION := by rw [hp.application, htags]; simp
  have hb : p.isPrivate = true ↔ cls = CLASS_PRIVATE := by rw [hp.isPrivate, htags]; simp
  refine ⟨htags, (hp.tag n).2 ⟨cls, _, by rw [htags]; rfl⟩, by rw [hp.explicit, htags]; simp, ?_, ?_,
    fun _ => kind_core (kind_of hp) fun c => by rw [core_iff, core_iff, removeWrapperTypes], fun h => absurd rfl h⟩
  · simp only [List.mem_cons, List.not_mem_nil, or_false] at hcls
    rcases hcls with rfl | rfl | rfl
    · have ha : p.application = false := by cases h : p.application with | false => rfl | true => exact absurd (ha.1 h) (by decide)
      have hb : p.isPrivate = false := by cases h : p.isPrivate with | false => rfl | true => exact absurd (hb.1 h) (by decide)
      rw [ha, hb]; decide
    · have hb : p.isPrivate = false := by cases h : p.isPrivate with | false => rfl | true => exact absurd (hb.1 h) (by decide)
      rw [ha.2 rfl, hb]; decide
    · rw [hb.2 rfl, if_pos rfl]; decide
  · intro hne
    simp only [List.mem_cons, List.not_mem_nil, or_false] at hcls
    rcases hcls with rfl | rfl | rfl
    · have ha : p.application = false := by cases h : p.application with | false => rfl | true => exact absurd (ha.1 h) (by decide)
      rw [ha]; decide
    · rw [ha.2 rfl]; decide
    · exact absurd rfl hne

theorem field_zero_tagged {Q : GoVal → Prop} (g : Tag DefinedValue) (t : MTy) (kind : Int) (b : Bool) (h : CoreZero u l d r f strict op s Q t) :
    FieldZero u l d r f strict op s Q (.tagged g t kind b) := by
  intro e o df p hok hg hp
  rw [EncOkTagged] at hok
  obtain ⟨hcls, ⟨num, hn, -⟩, hkind, hnr, hok⟩ := hok
  obtain ⟨cls, num'⟩ := g
  simp only at hcls hn
  subst hn
  obtain ⟨htags, htag, hex, hcl, hcl', hpa⟩ := meaning_tagged hcls hok hp
  cases hg with
  | tagged _ _ _ _ _ hg =>
    obtain ⟨n, k, h3, -, h4⟩ := h .component e p hok hg hpa
    obtain ⟨z, h5, h6, h7⟩ := h4 n (nameAt_self (.inl (by decide)))
    refine ⟨n, k, z, h3, h6, h7, ?_, h5.lacks⟩
    cases h5 with
    | raw _ h8 _ => exact absurd h8 hnr
    | tag tag comp h5 h8 =>
    intro g k' c en rest henc hg1 hg2 hl hnt hexp
    have hne : g ≠ ⟨classOf cls, num⟩ := by rintro rfl; exact hnt (.tagged _ _ _ _ _)
    cases he : p.explicit with
    | true =>
      obtain ⟨h9, h10⟩ := hexp ⟨_, by rw [htags]; exact List.mem_singleton.2 rfl, hex.1 he⟩
      exact .tag _ _ _ _ h5 (missing_explicit htag he (hcl' (h9 _ (by rw [htags]; exact List.mem_singleton.2 rfl) (hex.1 he))) henc hg1 hg2 hl hne h10)
    | false => exact .tag _ _ _ _ h5 (missing_implicit htag he hcl henc hg1 hg2 hl hne)

theorem core_zero_ref (cx : Ctx u l d r f strict op s) {Q : GoVal → Prop} (a : Str) (t : MTy) (ha : Assigned l a t) (h : CoreZero u l d r f strict op s Q t) :
    CoreZero u l d r f strict op s Q (.ref a) := by
  intro pos e p hok hg hp
  have hnm : ¬ MarksSet l (.ref a) := not_marks (.done _ (by simp) (by simp)) (by simp) (by simp) (by simp) (by simp)
  obtain ⟨pos', h1, h2, h3⟩ := ref_step cx ha hok hp
  obtain ⟨n, k, h4, h5⟩ := under_ref cx ha h1
    (P := fun m k => ∃ z, Taken l (.ref a) p m k ∧ Zero f m k z ∧ Q z)
    (by
      rintro n m fs ⟨z, h5, h6, h7⟩
      cases h6 with
      | struct _ _ vs h6 =>
        refine ⟨_, ?_, .struct _ _ _ h6, h7⟩
        cases h5 with
        | tag tag comp h5 h8 => exact .tag tag comp h5 h8
        | raw h5 => cases h5)
    (fun e he => by
      obtain ⟨n, k, h4, h5, h6⟩ := h pos' e p h2 he h3
      refine ⟨n, k, h4, h5, fun m hm => ?_⟩
      obtain ⟨z, h5, h6, h7⟩ := h6 m hm
      exact ⟨z, h5.wrap (fun g => .ref _ _ _ ha) (.ref _ _ ha), h6, h7⟩) (.inl hg)
  exact ⟨n, k, h4, fun h => absurd h hnm, fun m hm => h5 m (hm.2 fun h => hnm h.2)⟩

end Asn1go.Deco
