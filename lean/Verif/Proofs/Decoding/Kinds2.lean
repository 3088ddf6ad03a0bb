import Verif.Proofs.Decoding.Kinds

/-! The zero values of generated Go types. -/

namespace Asn1go.Deco

open Asn1go Spec CG Enco

variable {u : Casing} {l : List MAssignment} {d : Int} {r : Str} {f : GoFile} {strict : Bool} {op : Open} {s : Str → Prop}

/-- Types that are not composed, with one tag. -/
theorem core_zero_simple {Q : GoVal → Prop} {t : MTy} (h1 : ∀ g t' k b, t ≠ .tagged g t' k b) (h2 : ∀ t' c, t ≠ .constrained t' c)
    (hset : ∀ a b, t ≠ .set a b) (hsetOf : ∀ t', t ≠ .setOf t') (hm : ¬ MarksSet l t)
    (h : ∀ e, GoTypeOf u l d r t e → ∃ k tag comp z, Underlies f e [] k ∧ kindTag [] k = some (tag, comp) ∧ (∀ fs, k ≠ .struct fs) ∧ Zero f [] k z ∧ Q z ∧
      ∀ p : FieldParams, p.set = false → ∀ h : Header, h.cls = 0 → wireTag p tag h = h.tag → Takes l t ⟨0, h.tag⟩) :
    CoreZero u l d r f strict op s Q t := by
  intro pos e p hok hg hp
  have hc : ∀ c, Core t c → c = t := fun c hc => by
    have h3 : Core t t := .done t h1 h2
    rw [core_iff] at hc h3
    exact hc.symm.trans h3
  obtain ⟨k, tag, comp, z, h3, h4, h5, h6, h7, h8⟩ := h e hg
  refine ⟨[], k, h3, fun h => absurd h hm, fun m hm' => ?_⟩
  rcases hm'.2 fun h => hm h.2 with rfl | ⟨fs, h9⟩
  · exact ⟨z, .tag tag comp h4 (h8 p (params_set hp (fun a b h => hset a b (hc _ h).symm) fun t' h => hsetOf t' (hc _ h).symm)), h6, h7⟩
  · exact absurd h9 (h5 fs)

theorem takes_other {t : MTy} {tag : Nat} (h1 : tag ≠ 19) (h2 : tag ≠ 23) (h : Takes l t ⟨0, tag⟩) (p : FieldParams) (hp : p.set = false) (x : Header)
    (_ : x.cls = 0) (hw : wireTag p tag x = x.tag) : Takes l t ⟨0, x.tag⟩ := by
  rw [wire_other hp h1 h2] at hw
  rw [← hw]
  exact h

theorem no_mark {t : MTy} (h1 : ∀ g t' k b, t ≠ .tagged g t' k b) (h2 : ∀ t' c, t ≠ .constrained t' c) (h3 : ∀ a b, t ≠ .set a b) (h4 : ∀ t', t ≠ .setOf t')
    (h5 : ∀ t', t ≠ .sequenceOf t') (h6 : ∀ a b, t ≠ .choice a b) : ¬ MarksSet l t :=
  not_marks (.done t h1 h2) h3 h4 h5 h6

theorem core_zero_boolean {Q : GoVal → Prop} (hpre : ∀ n ∈ predeclared, n ∉ declared f.decls) (hQ : Q (.bool false)) : CoreZero u l d r f strict op s Q .boolean := by
  refine core_zero_simple (by simp) (by simp) (by simp) (by simp) (no_mark (by simp) (by simp) (by simp) (by simp) (by simp) (by simp)) fun e hg => ?_
  cases hg
  exact ⟨_, _, _, _, .bool (hpre _ (by decide)), rfl, by simp, .bool _, hQ, takes_other (by decide) (by decide) .boolean⟩

theorem core_zero_integer {Q : GoVal → Prop} (hpre : ∀ n ∈ predeclared, n ∉ declared f.decls) (nums : List NamedNumber)
    (hQ : Q (.int 0)) (hQ' : r ≠ c! "int64" → Q (.big none)) : CoreZero u l d r f strict op s Q (.integer nums) := by
  refine core_zero_simple (by simp) (by simp) (by simp) (by simp) (no_mark (by simp) (by simp) (by simp) (by simp) (by simp) (by simp)) fun e hg => ?_
  cases hg with
  | int64 =>
    exact ⟨_, _, _, _, .int64 (hpre _ (by decide)), rfl, by simp, .int _, hQ, takes_other (by decide) (by decide) (.integer _)⟩
  | bigInt _ hr =>
    exact ⟨_, _, _, _, .big, rfl, by simp, .big _, hQ' (by rw [hr]; decide), takes_other (by decide) (by decide) (.integer _)⟩

theorem core_zero_sequenceOf {Q : GoVal → Prop} (cx : Ctx u l d r f strict op s) (t : MTy) (hQ : ∀ n, Q (.slice n true [])) :
    CoreZero u l d r f strict op s Q (.sequenceOf t) := by
  intro pos e p hok hg hp
  have hok' : EncOk strict op l d r s .element t := by simpa [EncOk] using hok
  have hnm : ¬ MarksSet l (.sequenceOf t) := by
    intro hm
    cases hm with
    | sequenceOf _ hm => exact ok_not_marks hm hok'
  cases hg with
  | sequenceOf _ e hg =>
    refine ⟨[], _, .slice _ (not_byte cx.named hg), fun h => absurd h hnm, fun m hm => ?_⟩
    rcases hm.2 fun h => hnm h.2 with rfl | ⟨fs, h⟩
    · have hset : p.set = false := params_set hp (by simp [core_iff, removeWrapperTypes]) (by simp [core_iff, removeWrapperTypes])
      exact ⟨_, .tag 16 true (by simp [kindTag]) (takes_other (by decide) (by decide) (.sequenceOf _) p hset), .slice _ _, hQ _⟩
    · cases h

theorem core_zero_setOf {Q : GoVal → Prop} (cx : Ctx u l d r f strict op s) (t : MTy) (hQ : ∀ n, Q (.slice n true [])) :
    CoreZero u l d r f strict op s Q (.setOf t) := by
  intro pos e p hok hg hp
  rw [EncOk] at hok
  cases hg with
  | setOf _ e hg =>
    refine ⟨[], _, .slice _ (not_byte cx.named hg), fun _ => trivial, fun m hm => ?_⟩
    cases pos with
    | element => exact absurd rfl hok.1
    | assignment =>
      obtain ⟨q, rfl⟩ := hm.1 ⟨rfl, .setOf _⟩
      exact ⟨_, .tag 17 true (by simp [kindTag]) (takes_other (by decide) (by decide) (.setOf _) p (hp.2 (by decide)).set), .slice _ _, hQ _⟩
    | component =>
      rcases hm.2 (by simp) with rfl | ⟨fs, h⟩
      · have hset : p.set = true := (hp.1 rfl).set.2 (.inr ⟨t, by simp [core_iff, removeWrapperTypes]⟩)
        refine ⟨_, .tag 16 true (by simp [kindTag]) fun x _ hw => ?_, .slice _ _, hQ _⟩
        rw [wire_set hset] at hw
        rw [← hw]
        exact .setOf _
      · cases h

theorem core_zero_raw {Q : GoVal → Prop} (alts : List MNamed) (ext : List MTy) (hs : SomeTagged l alts) (hQ : Q (.raw 0 0 false none none)) :
    CoreZero u l d r f strict op s Q (.choice alts ext) := by
  intro pos e p hok hg hp
  cases hg with
  | rawChoice _ _ _ =>
    exact ⟨[], .raw, .raw, fun hm => by cases hm with | choice _ _ _ h _ => exact absurd hs (some_tagged h), fun m hm => ⟨_, .raw rfl (.raw _ _ hs) (fun g => .raw _ _ _ hs), .raw _, hQ⟩⟩
  | onlyChoice _ n t _ h _ => exact absurd hs (some_tagged h)
  | choice _ _ h _ => exact absurd hs h

/-- The zero values of fields. -/
theorem zero_fields {Q : GoVal → Prop} : ∀ {xs : List Member} {fs : List GoField}, FieldsOf u l d r xs fs →
    (∀ y ∈ xs, EncOkTagged strict op l d r s y.type ∧ DefaultOk strict l r y ∧ FieldZero u l d r f strict op s Q y.type) →
    ∃ vs, ZeroFields f fs vs ∧ ∀ v ∈ vs, ∃ n tag z, v = .mk n tag z ∧ Q z
  | _, _, .nil, _ => ⟨[], .nil, by simp⟩
  | _, _, .cons x xs e tag fs hg htag hf, h => by
    obtain ⟨h1, h2, h3⟩ := h x (by simp)
    obtain ⟨n, k, z, h4, h6, h7, -⟩ := h3 e _ _ _ h1 hg (htag.meaning (tags_goInt h1) (default_goInt h2))
    obtain ⟨vs, h8, h9⟩ := zero_fields hf fun y hy => h y (by simp [hy])
    refine ⟨_, .cons _ _ _ _ _ _ _ _ h4 h6 h8, ?_⟩
    intro v hv
    rcases List.mem_cons.1 hv with rfl | hv
    · exact ⟨_, _, _, rfl, h7⟩
    · exact h9 v hv

theorem fields_zero : ∀ {vs : List GoFieldVal}, (∀ v ∈ vs, ∃ n tag z, v = .mk n tag z ∧ z.isZero = true) → fieldsZero vs = true
  | [], _ => rfl
  | v :: vs, h => by
    obtain ⟨n, tag, z, rfl, hz⟩ := h v (by simp)
    rw [fieldsZero, hz, fields_zero fun v hv => h v (by simp [hv])]
    rfl

theorem members_ok {a b : List MComponent} (h1 : EncOkMembers strict op l d r s a) (h2 : EncOkMembers strict op l d r s b) :
    ∀ y ∈ members (a ++ b), EncOkTagged strict op l d r s y.type ∧ DefaultOk strict l r y := by
  intro y hy
  rw [Enco.members_append, List.mem_append] at hy
  exact hy.elim (write_mem h1) (write_mem h2)

/-- Types with a zero value. -/
theorem zero_aux (cx : Ctx u l d r f strict op s) (hpre : ∀ n ∈ predeclared, n ∉ declared f.decls) {t : MTy} (h : HasZero l t) :
    CoreZero u l d r f strict op s (fun z => z.isZero = true) t ∧ FieldZero u l d r f strict op s (fun z => z.isZero = true) t := by
  have both : ∀ {t}, (∀ g t' k b, t ≠ .tagged g t' k b) → (∀ t' c, t ≠ .constrained t' c) → CoreZero u l d r f strict op s (fun z => z.isZero = true) t →
      CoreZero u l d r f strict op s (fun z => z.isZero = true) t ∧ FieldZero u l d r f strict op s (fun z => z.isZero = true) t :=
    fun h1 h2 h => ⟨h, field_zero_of_core h1 h2 h⟩
  induction h with
  | boolean => exact both (by simp) (by simp) (core_zero_boolean hpre rfl)
  | integer nums => exact both (by simp) (by simp) (core_zero_integer hpre nums rfl fun _ => rfl)
  | enumerated a b =>
    refine both (by simp) (by simp) (core_zero_simple (by simp) (by simp) (by simp) (by simp) (no_mark (by simp) (by simp) (by simp) (by simp) (by simp) (by simp)) fun e hg => ?_)
    cases hg
    exact ⟨_, _, _, _, .enumerated, rfl, by simp, .enum _, rfl, takes_other (by decide) (by decide) (.enumerated _ _)⟩
  | octetString =>
    refine both (by simp) (by simp) (core_zero_simple (by simp) (by simp) (by simp) (by simp) (no_mark (by simp) (by simp) (by simp) (by simp) (by simp) (by simp)) fun e hg => ?_)
    cases hg
    exact ⟨_, _, _, _, .bytes (hpre _ (by decide)), rfl, by simp, .bytes _, rfl, takes_other (by decide) (by decide) .octetString⟩
  | bitString nb =>
    refine both (by simp) (by simp) (core_zero_simple (by simp) (by simp) (by simp) (by simp) (no_mark (by simp) (by simp) (by simp) (by simp) (by simp) (by simp)) fun e hg => ?_)
    cases hg
    exact ⟨_, _, _, _, .bits, rfl, by simp, .bits _, rfl, takes_other (by decide) (by decide) (.bitString _)⟩
  | objectIdentifier =>
    refine both (by simp) (by simp) (core_zero_simple (by simp) (by simp) (by simp) (by simp) (no_mark (by simp) (by simp) (by simp) (by simp) (by simp) (by simp)) fun e hg => ?_)
    cases hg
    exact ⟨_, _, _, _, .oid, rfl, by simp, .oid _, rfl, takes_other (by decide) (by decide) .objectIdentifier⟩
  | string k =>
    refine both (by simp) (by simp) (core_zero_simple (by simp) (by simp) (by simp) (by simp) (no_mark (by simp) (by simp) (by simp) (by simp) (by simp) (by simp)) fun e hg => ?_)
    cases hg
    refine ⟨_, _, _, _, .string (hpre _ (by decide)), rfl, by simp, .string _, rfl, fun p hp x hx hw => ?_⟩
    rw [wire_string hp hx] at hw
    refine .string _ _ ?_
    split at hw
    · exact .inr ‹_›
    · exact .inl hw.symm
  | sequenceOf t => exact both (by simp) (by simp) (core_zero_sequenceOf cx t fun _ => rfl)
  | setOf t => exact both (by simp) (by simp) (core_zero_setOf cx t fun _ => rfl)
  | time h1 =>
    have hres : Resolves l (c! "GeneralizedTime") (c! "GeneralizedTime") _ := .generalizedTime _ (.unassigned _ h1)
    refine both (by simp) (by simp) (core_zero_simple (by simp) (by simp) (by simp) (by simp) (no_mark (by simp) (by simp) (by simp) (by simp) (by simp) (by simp)) fun e hg => ?_)
    have he : e = .ident (c! "time.Time") := by
      generalize hq : c! "GeneralizedTime" = q at hg hres
      cases hg with
      | time => rfl
      | bits _ b s1 nb h3 h4 h5 => obtain ⟨rfl, rfl⟩ := resolves_unique h3 hres; subst hq; exact absurd (.inl rfl) h4
      | ref _ b s1 h3 h4 h5 => obtain ⟨rfl, rfl⟩ := resolves_unique h3 hres; subst hq; exact absurd (.inl rfl) h4
    subst he
    refine ⟨_, _, _, _, .time, rfl, by simp, .time _, by simp [GoVal.isZero], fun p hp x hx hw => ?_⟩
    rw [wire_time hp hx] at hw
    refine .time _ h1 ?_
    split at hw
    · exact .inr hw.symm
    · exact .inl hw.symm
  | ref a t ha _ ih => exact both (by simp) (by simp) (core_zero_ref cx a t ha ih.1)
  | constrained t c _ ih => exact ⟨core_zero_constrained t c ih.1, field_zero_constrained t c ih.2⟩
  | tagged g t k b _ ih => exact ⟨fun pos e p hok => by simp [EncOk] at hok, field_zero_tagged g t k b ih.1⟩
  | raw alts ext hs => exact both (by simp) (by simp) (core_zero_raw alts ext hs rfl)
  | choice n t ext _ ih =>
    refine both (by simp) (by simp) fun pos e p hok hg hp => ?_
    by_cases hst : SomeTagged l [.mk n t]
    · exact core_zero_raw (Q := fun z => z.isZero = true) _ _ hst rfl pos e p hok hg hp
    have hok' : EncOk strict op l d r s .element t := by simpa [EncOkOnly] using choice_ok hok hst
    have hn := params_neutral hp (by simp [core_iff, removeWrapperTypes]) (by simp [core_iff, removeWrapperTypes]) (by simp [core_iff, removeWrapperTypes])
      (by simp [core_iff, removeWrapperTypes])
    have hnm : ¬ MarksSet l (.choice [.mk n t] ext) := by
      intro hm
      cases hm with
      | choice _ _ _ _ hm => exact ok_not_marks hm hok'
    cases hg with
    | rawChoice _ _ h => exact absurd h hst
    | onlyChoice _ _ _ _ hna hg =>
      obtain ⟨n', k, h1, -, h2⟩ := ih.1 .element e p hok' hg (neutral_at hn (by decide))
      refine ⟨n', k, h1, fun h => absurd h hnm, fun m hm => ?_⟩
      obtain ⟨z, h5, h6, h7⟩ := h2 m ⟨fun h => by simp at h, fun _ => hm.2 fun h => hnm h.2⟩
      exact ⟨z, h5.wrap (fun g => .choice _ _ n t _ (by simp)) (.alternative _ _ n t (by simp)), h6, h7⟩
    | choice _ _ _ h => simp at h
  | sequence a b _ ih =>
    refine both (by simp) (by simp) fun pos e p hok hg hp => ?_
    rw [EncOk] at hok
    cases hg with
    | sequence _ _ fs hf =>
      obtain ⟨vs, h1, h2⟩ := zero_fields hf fun y hy => ⟨(members_ok hok.1 hok.2 y hy).1, (members_ok hok.1 hok.2 y hy).2, (ih y hy).2⟩
      refine ⟨[], _, .struct _, fun _ => trivial, fun m _ => ⟨_, .tag 16 true rfl (takes_other (by decide) (by decide) (.sequence _ _) p ?_), .struct _ _ _ h1, fields_zero h2⟩⟩
      exact params_set hp (by simp [core_iff, removeWrapperTypes]) (by simp [core_iff, removeWrapperTypes])
  | set a b _ ih =>
    refine both (by simp) (by simp) fun pos e p hok hg hp => ?_
    rw [EncOk] at hok
    obtain ⟨rfl, hok1, hok2, -⟩ := hok
    cases hg with
    | set _ _ fs hf =>
      obtain ⟨vs, h1, h2⟩ := zero_fields hf fun y hy => ⟨(members_ok hok1 hok2 y hy).1, (members_ok hok1 hok2 y hy).2, (ih y hy).2⟩
      have hset : p.set = true := (hp.1 rfl).set.2 (.inl ⟨a, b, by simp [core_iff, removeWrapperTypes]⟩)
      refine ⟨[], _, .struct _, fun _ => trivial, fun m _ => ⟨_, .tag 16 true rfl fun x _ hw => ?_, .struct _ _ _ h1, fields_zero h2⟩⟩
      rw [wire_set hset] at hw
      rw [← hw]
      exact .set _ _

/-- Types behind references and tags. -/
theorem zero_core {Q : GoVal → Prop} {t c : MTy} (hc : Core t c)
    (h : CoreZero u l d r f strict op s Q c ∧ FieldZero u l d r f strict op s Q c) :
    CoreZero u l d r f strict op s Q t ∧ FieldZero u l d r f strict op s Q t := by
  induction hc with
  | tagged g t c k b _ ih => exact ⟨fun pos e p hok => by simp [EncOk] at hok, field_zero_tagged g t k b (ih h).1⟩
  | constrained t c y _ ih => exact ⟨core_zero_constrained t y (ih h).1, field_zero_constrained t y (ih h).2⟩
  | done t _ _ => exact h

theorem zero_typeIs (cx : Ctx u l d r f strict op s) {Q : GoVal → Prop} {t c : MTy} (ht : TypeIs l t c)
    (h : CoreZero u l d r f strict op s Q c ∧ FieldZero u l d r f strict op s Q c) :
    CoreZero u l d r f strict op s Q t ∧ FieldZero u l d r f strict op s Q t := by
  induction ht with
  | core t c hc _ => exact zero_core hc h
  | ref t t' c a hc ha _ ih =>
    have := core_zero_ref cx a t' ha (ih h).1
    exact zero_core hc ⟨this, field_zero_of_core (by simp) (by simp) this⟩

theorem ref_resolves {a b : Str} {t : MTy} {e : GoExpr} (h : GoTypeOf u l d r (.ref a) e) (_ : Assigned l b t) (ha : Alias l b a) :
    ∃ c t', Resolves l b c t' := by
  have : ∃ c t', Resolves l a c t' := by
    cases h with
    | time _ c t' h _ => exact ⟨_, _, h⟩
    | bits _ c t' _ h _ _ => exact ⟨_, _, h⟩
    | ref _ c t' h _ _ => exact ⟨_, _, h⟩
  obtain ⟨c, t', h⟩ := this
  cases h with
  | assigned _ _ h hn => exact ⟨_, _, .assigned _ _ _ (.alias _ _ _ _ ha h) hn⟩
  | generalizedTime h => exact ⟨_, _, .generalizedTime _ (.alias _ _ _ _ ha h)⟩

/-- References to assigned types with a Go type have a Go type. -/
theorem ref_type {a : Str} {t : MTy} {e : GoExpr} (ha : Assigned l a t) (h : GoTypeOf u l d r t e) : ∃ e', GoTypeOf u l d r (.ref a) e' := by
  have hc := core_total t
  have hres : ∃ b t', Resolves l a b t' := by
    by_cases hr : ∃ b, removeWrapperTypes t = .ref b
    · obtain ⟨b, hb⟩ := hr
      rw [hb] at hc
      exact ref_resolves (goType_core hc h) ha ⟨t, ha, hc⟩
    · refine ⟨a, t, .assigned _ _ _ (.assigned _ _ _ ha hc fun b hb => hr ⟨b, hb⟩) ?_⟩
      rintro rfl
      cases h
  obtain ⟨b, t', hres⟩ := hres
  by_cases hb : TimeName b
  · exact ⟨_, .time _ _ _ hres hb⟩
  · by_cases hn : ∃ nb, Core t' (.bitString nb)
    · exact ⟨_, .bits _ _ _ hn.choose hres hb hn.choose_spec⟩
    · exact ⟨_, .ref _ _ _ hres hb fun nb h => hn ⟨nb, h⟩⟩

/-! ### Types of elements -/

/-- A kind that `getUniversalType` knows, under any name. -/
def ListKind (k : GoKind) : Prop := k = .raw ∨ ∀ n, kindTag n k ≠ none

variable (u l d r f strict op s) in
def KnownStmt (t : MTy) : Prop :=
  ∀ pos e p, EncOk strict op l d r s pos t → GoTypeOf u l d r t e → ParamsAt l pos t p → ∃ n k, Underlies f e n k ∧ (MarksSet l t → k.plain) ∧ ListKind k

theorem known_simple {t : MTy} (h1 : ∀ g t' k b, t ≠ .tagged g t' k b) (h2 : ∀ t' c, t ≠ .constrained t' c) (h3 : ∀ a b, t ≠ .set a b)
    (h4 : ∀ t', t ≠ .setOf t') (h5 : ∀ t', t ≠ .sequenceOf t') (h6 : ∀ a b, t ≠ .choice a b)
    (h : ∀ e, GoTypeOf u l d r t e → ∃ n k, Underlies f e n k ∧ ListKind k) : KnownStmt u l d r f strict op s t := by
  intro pos e p _ hg _
  obtain ⟨n, k, h7, h8⟩ := h e hg
  exact ⟨n, k, h7, fun hm => absurd hm (no_mark h1 h2 h3 h4 h5 h6), h8⟩

theorem known_raw (alts : List MNamed) (ext : List MTy) (hs : SomeTagged l alts) : KnownStmt u l d r f strict op s (.choice alts ext) := by
  intro pos e p _ hg _
  cases hg with
  | rawChoice _ _ _ => exact ⟨[], .raw, .raw, fun hm => by cases hm with | choice _ _ _ h _ => exact absurd hs (some_tagged h), .inl rfl⟩
  | onlyChoice _ n t _ h _ => exact absurd hs (some_tagged h)
  | choice _ _ h _ => exact absurd hs h

/-- The Go types of such types are known. -/
theorem known_aux (cx : Ctx u l d r f strict op s) (hpre : ∀ n ∈ predeclared, n ∉ declared f.decls) {t : MTy} (h : KnownElement l t) :
    KnownStmt u l d r f strict op s t := by
  induction h with
  | boolean =>
    refine known_simple (by simp) (by simp) (by simp) (by simp) (by simp) (by simp) fun e hg => ?_
    cases hg
    exact ⟨_, _, .bool (hpre _ (by decide)), .inr (by simp [kindTag])⟩
  | integer nums =>
    refine known_simple (by simp) (by simp) (by simp) (by simp) (by simp) (by simp) fun e hg => ?_
    cases hg with
    | int64 => exact ⟨_, _, .int64 (hpre _ (by decide)), .inr (by simp [kindTag])⟩
    | bigInt => exact ⟨_, _, .big, .inr (by simp [kindTag])⟩
  | enumerated a b =>
    refine known_simple (by simp) (by simp) (by simp) (by simp) (by simp) (by simp) fun e hg => ?_
    cases hg
    exact ⟨_, _, .enumerated, .inr (by simp [kindTag])⟩
  | octetString =>
    refine known_simple (by simp) (by simp) (by simp) (by simp) (by simp) (by simp) fun e hg => ?_
    cases hg
    exact ⟨_, _, .bytes (hpre _ (by decide)), .inr (by simp [kindTag])⟩
  | bitString nb =>
    refine known_simple (by simp) (by simp) (by simp) (by simp) (by simp) (by simp) fun e hg => ?_
    cases hg
    exact ⟨_, _, .bits, .inr (by simp [kindTag])⟩
  | objectIdentifier =>
    refine known_simple (by simp) (by simp) (by simp) (by simp) (by simp) (by simp) fun e hg => ?_
    cases hg
    exact ⟨_, _, .oid, .inr (by simp [kindTag])⟩
  | string k =>
    refine known_simple (by simp) (by simp) (by simp) (by simp) (by simp) (by simp) fun e hg => ?_
    cases hg
    exact ⟨_, _, .string (hpre _ (by decide)), .inr (by simp [kindTag])⟩
  | sequence a b =>
    refine known_simple (by simp) (by simp) (by simp) (by simp) (by simp) (by simp) fun e hg => ?_
    cases hg
    exact ⟨_, _, .struct _, .inr (by simp [kindTag])⟩
  | sequenceOf t =>
    intro pos e p hok hg _
    cases hg with
    | sequenceOf _ e hg => exact ⟨_, _, .slice _ (not_byte cx.named hg), fun _ => trivial, .inr (by simp [kindTag])⟩
  | setOf t =>
    intro pos e p hok hg _
    cases hg with
    | setOf _ e hg => exact ⟨_, _, .slice _ (not_byte cx.named hg), fun _ => trivial, .inr (by simp [kindTag])⟩
  | ref a t ha _ ih =>
    intro pos e p hok hg hp
    have hnm : ¬ MarksSet l (.ref a) := not_marks (.done _ (by simp) (by simp)) (by simp) (by simp) (by simp) (by simp)
    obtain ⟨pos', h1, h2, h3⟩ := ref_step cx ha hok hp
    obtain ⟨n, k, h4, h5⟩ := under_ref cx ha h1 (P := fun _ k => ListKind k) (fun _ _ _ h => h)
      (fun e he => by
        obtain ⟨n, k, h4, h5, h6⟩ := ih pos' e p h2 he h3
        exact ⟨n, k, h4, h5, fun _ _ => h6⟩) (.inl hg)
    exact ⟨n, k, h4, fun h => absurd h hnm, h5 n (.inl rfl)⟩
  | constrained t c _ ih =>
    intro pos e p hok hg hp
    cases hg with
    | constrained _ _ _ hg =>
      obtain ⟨n, k, h1, h2, h3⟩ := ih pos e p (by simpa [EncOk] using hok) hg (params_constrained hp)
      exact ⟨n, k, h1, fun hm => h2 (by cases hm with | constrained _ _ h => exact h), h3⟩
  | raw alts ext hs => exact known_raw alts ext hs
  | choice n t ext _ ih =>
    intro pos e p hok hg hp
    by_cases hst : SomeTagged l [.mk n t]
    · exact known_raw _ _ hst pos e p hok hg hp
    have hok' : EncOk strict op l d r s .element t := by simpa [EncOkOnly] using choice_ok hok hst
    have hn := params_neutral hp (by simp [core_iff, removeWrapperTypes]) (by simp [core_iff, removeWrapperTypes]) (by simp [core_iff, removeWrapperTypes])
      (by simp [core_iff, removeWrapperTypes])
    cases hg with
    | rawChoice _ _ h => exact absurd h hst
    | onlyChoice _ _ _ _ hna hg =>
      obtain ⟨n', k, h1, h2, h3⟩ := ih .element e p hok' hg (neutral_at hn (by decide))
      exact ⟨n', k, h1, fun hm => by cases hm with | choice _ _ _ _ hm => exact absurd hok' (ok_not_marks hm), h3⟩
    | choice _ _ _ h => simp at h

theorem known_element (cx : Ctx u l d r f strict op s) (hpre : ∀ n ∈ predeclared, n ∉ declared f.decls) {t : MTy} (h : KnownElement l t) {e : GoExpr}
    (hok : EncOk strict op l d r s .element t) (hg : GoTypeOf u l d r t e) : ∃ n k, Underlies f e n k ∧ (k = .raw ∨ kindTag n k ≠ none) := by
  obtain ⟨n, k, h1, -, h2⟩ := known_aux cx hpre h .element e {} hok hg (neutral_at neutral_empty (by decide))
  exact ⟨n, k, h1, h2.imp_right fun h => h n⟩

/-! ### Values put into interfaces -/

theorem typed_iface {e : GoExpr} {v : GoVal} (h : Typed f e v) : ∀ w, v = .iface w → Typed f .iface (.iface w) := by
  refine Typed.rec (motive_1 := fun _ v _ => ∀ w, v = .iface w → Typed f .iface (.iface w)) (motive_2 := fun _ _ _ => True)
      (motive_3 := fun _ _ _ => True) ?_ ?_ ?_ ?_ ?_ ?_ ?_ ?_ ?_ ?_ ?_ ?_ ?_ ?_ ?_ ?_ ?_ ?_ ?_ ?_ ?_ h
  case refine_13 => intro e v h1 h2 h3 _ w hw; cases hw; exact .iface _ _ h1 h2 h3
  case refine_16 => exact fun _ _ _ _ _ ih => ih
  case refine_17 =>
    intro n e v _ _ ih w hw
    refine ih w ?_
    cases v <;> simp_all [GoVal.named]
  all_goals intros; first | trivial | simp_all

theorem means_not_nil {B : Held} {t : MTy} {v : GoVal} {x : AsnVal} (h : Means l B t v x) : v ≠ .nilIface := by
  refine Means.rec (motive_1 := fun _ v _ _ => v ≠ .nilIface) (motive_2 := fun _ _ _ _ => True) (motive_3 := fun _ _ _ _ => True)
    ?_ ?_ ?_ ?_ ?_ ?_ ?_ ?_ ?_ ?_ ?_ ?_ ?_ ?_ ?_ ?_ ?_ ?_ ?_ ?_ ?_ ?_ ?_ ?_ h
  case refine_14 => intro _ _ _ _ v w _ _ _ _ _ hw _ ih; subst hw; cases v <;> simp_all [GoVal.boxed]
  all_goals intros; first | trivial | assumption | simp_all

/-- The value put into an interface. -/
theorem boxed_typed {B : Held} {t : MTy} {x : AsnVal} {e : GoExpr} {v : GoVal} (h : Typed f e v) (hm : Means l B t v x) :
    Typed f .iface v.boxed := by
  have hn := means_not_nil hm
  by_cases hv : ∃ w, v = .iface w
  · obtain ⟨w, rfl⟩ := hv
    exact typed_iface h w rfl
  · have : v.boxed = .iface v := by cases v <;> simp_all [GoVal.boxed]
    rw [this]
    exact .iface _ _ h hn fun w hw => hv ⟨w, hw⟩

end Asn1go.Deco
