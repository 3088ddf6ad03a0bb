import Verif.Proofs.Encoding.Encode3
import Verif.Spec.Decodable

/-! In a Go value, an OPTIONAL component that is present never has the zero value; so it is told in the value it stands for. -/

namespace Asn1go.Enco

open Asn1go Spec CG

variable {u : Casing} {l : List MAssignment} {d : Int} {r : Str} {f : GoFile} {strict : Bool} {op : Open} {s : Str → Prop}

/-- The numbers of an object identifier that encoding/asn1 reads. -/
structure NarrowOid (o : List Int) : Prop where
  each : ∀ n ∈ o, n ≤ 2147483647
  arcs : ∀ a b q, o = a :: b :: q → 40 * a + b ≤ 2147483647

mutual

/-- The numbers in the value are those that encoding/asn1 reads; those of enumerations may come from default values too. -/
def Narrow : GoVal → Prop
  | .enum n => -2147483648 ≤ n ∧ n ≤ 2147483647
  | .oid (some o) => NarrowOid o
  | .slice _ _ l => NarrowElems l
  | .struct fs => NarrowFields fs
  | .iface v => Narrow v
  | _ => True

/-- Elements. -/
def NarrowElems : List GoVal → Prop
  | [] => True
  | v :: l => Narrow v ∧ NarrowElems l

/-- Fields. -/
def NarrowFields : List GoFieldVal → Prop
  | [] => True
  | .mk _ tag v :: l => (Narrow v ∨ ((fieldParams tag).dflt ≠ none ∧ ∃ n, v = .enum n)) ∧ NarrowFields l

end

variable (l r) in
/-- What is said of a value `v` that stands for `x`. -/
structure Sound (t : MTy) (v : GoVal) (x : AsnVal) : Prop where
  told : OptionalsTold l r t x
  blank : Blank l r t x → v.isZero = true
  fits : Fits l r t x
  small : Narrow v → ReadSmall l t x

variable (u l d r f strict op s) in
def SoundStmt (t : MTy) (v : GoVal) (x : AsnVal) : Prop :=
  ∀ pos e, EncOk strict op l d r s pos t → GoTypeOf u l d r t e → TypedAt l f pos t e v → Sound l r t v x

variable (u l d r f strict op s) in
def SoundField (t : MTy) (v : GoVal) (x : AsnVal) : Prop :=
  ∀ e, EncOkTagged strict op l d r s t → GoTypeOf u l d r t e → Typed f e v → Sound l r t v x

variable (u l d r f strict op s) in
def SoundMembers (xs : List Member) (fs : List GoFieldVal) (vs : List (Option AsnVal)) : Prop :=
  ∀ fds, (∀ y ∈ xs, EncOkTagged strict op l d r s y.type ∧ DefaultOk strict l r y) → FieldsOf u l d r xs fds → TypedFields f fds fs →
    (∀ m y, (m, some y) ∈ xs.zip vs → OptionalsTold l r m.type y ∧ (m.optional = true → ¬ Blank l r m.type y)) ∧
      (BlankMembers l r xs vs → fieldsZero fs = true) ∧ (∀ m x, (m, some x) ∈ xs.zip vs → Fits l r m.type x) ∧
      (NarrowFields fs → ∀ m x, (m, some x) ∈ xs.zip vs → ReadSmall l m.type x)

variable (u l d r f strict op s) in
def SoundElems (t : MTy) (vs : List GoVal) (xs : List AsnVal) : Prop :=
  ∀ e, EncOk strict op l d r s .element t → GoTypeOf u l d r t e → TypedElems f e vs → (∀ x ∈ xs, OptionalsTold l r t x ∧ Fits l r t x) ∧ (NarrowElems vs → ∀ x ∈ xs, ReadSmall l t x)

/-! ### Values without parts -/

/-- A value without parts of its own. -/
def Flat (x : AsnVal) : Prop := (∀ vs, x ≠ .record vs) ∧ (∀ vs, x ≠ .list vs) ∧ ∀ n y, x ≠ .choice n y

theorem flat_part {t t' : MTy} {x y : AsnVal} (h : Seen l t x t' y) (hf : Flat x) : y = x := by
  induction h with
  | here => rfl
  | ref _ _ _ _ _ _ _ ih => exact ih hf
  | constrained _ _ _ _ _ _ ih => exact ih hf
  | tagged _ _ _ _ _ _ _ _ ih => exact ih hf
  | choice => exact absurd rfl (hf.2.2 _ _)
  | sequence => exact absurd rfl (hf.1 _)
  | set => exact absurd rfl (hf.1 _)
  | sequenceOf => exact absurd rfl (hf.2.1 _)
  | setOf => exact absurd rfl (hf.2.1 _)

/-- `Part x y`: the abstract value `y` is part of `x`. -/
inductive Part : AsnVal → AsnVal → Prop
  | here (x : AsnVal) : Part x x
  | list (l : List AsnVal) (x y : AsnVal) : x ∈ l → Part x y → Part (.list l) y
  | record (l : List (Option AsnVal)) (x y : AsnVal) : some x ∈ l → Part x y → Part (.record l) y
  | choice (n : Str) (x y : AsnVal) : Part x y → Part (.choice n x) y

theorem seen_part {t t' : MTy} {x y : AsnVal} (h : Seen l t x t' y) : Part x y := by
  induction h with
  | here => exact .here _
  | ref _ _ _ _ _ _ _ ih => exact ih
  | constrained _ _ _ _ _ _ ih => exact ih
  | tagged _ _ _ _ _ _ _ _ ih => exact ih
  | choice _ _ _ _ _ _ _ _ _ _ ih => exact .choice _ _ _ ih
  | sequence _ _ _ _ _ _ _ hm _ ih => exact .record _ _ _ (List.of_mem_zip hm).2 ih
  | set _ _ _ _ _ _ _ hm _ ih => exact .record _ _ _ (List.of_mem_zip hm).2 ih
  | sequenceOf _ _ _ _ _ hm _ ih => exact .list _ _ _ hm ih
  | setOf _ _ _ _ _ hm _ ih => exact .list _ _ _ hm ih

theorem flat_told {t : MTy} {x : AsnVal} (hf : Flat x) : OptionalsTold l r t x := by
  rintro a b vs (h | h) <;> exact absurd (flat_part h hf).symm (hf.1 vs)

theorem flat_fits {t : MTy} {x : AsnVal} (hf : Flat x) (h1 : ∀ n, x = .integer n → r = c! "int64" → GoInt n) (h2 : ∀ n, x = .enumerated n → GoInt n)
    (h3 : ∀ b, x = .bits b → GoInt b.length) (h4 : ∀ o, x = .oid o → ∀ n ∈ o, GoInt n) (h5 : ∀ a b q, x = .oid (a :: b :: q) → GoInt (40 * a + b)) :
    Fits l r t x := by
  intro t' y h
  cases flat_part h hf
  exact ⟨h1, h2, h3, h4, h5⟩

theorem flat_small {t : MTy} {x : AsnVal} (hf : Flat x) (h2 : ∀ n, x = .enumerated n → -2147483648 ≤ n ∧ n ≤ 2147483647)
    (h4 : ∀ o, x = .oid o → ∀ n ∈ o, n ≤ 2147483647) (h5 : ∀ a b q, x = .oid (a :: b :: q) → 40 * a + b ≤ 2147483647) : ReadSmall l t x := by
  intro t' y h
  cases flat_part h hf
  exact ⟨h2, h4, h5⟩

/-- The values of numbers are those of Go types. -/
def Small : GoVal → Prop
  | .int n => GoInt n
  | .enum n => GoInt n
  | .bits _ n => GoInt n
  | .oid (some o) => ∀ n ∈ o, GoInt n
  | _ => True

theorem small_named {v : GoVal} (h : Small v) (n : Str) : Small (v.named n) := by
  cases v <;> exact h

theorem typed_small {e : GoExpr} {v : GoVal} (h : Typed f e v) : Small v := by
  refine Typed.rec (motive_1 := fun _ v _ => Small v) (motive_2 := fun _ _ _ => True) (motive_3 := fun _ _ _ => True)
    ?_ ?_ ?_ ?_ ?_ ?_ ?_ ?_ ?_ ?_ ?_ ?_ ?_ ?_ ?_ ?_ ?_ ?_ ?_ ?_ ?_ h
  all_goals intros
  all_goals first
    | trivial
    | assumption
    | (rename_i ih; exact small_named ih _)
    | (rename_i l h; cases l with
       | none => trivial
       | some o => exact h o rfl)

theorem composed_fits {x : AsnVal} (h : ¬ Flat x) : FitsHere r x :=
  ⟨fun n hx => (h (by subst hx; exact ⟨by simp, by simp, by simp⟩)).elim, fun n hx => (h (by subst hx; exact ⟨by simp, by simp, by simp⟩)).elim,
    fun n hx => (h (by subst hx; exact ⟨by simp, by simp, by simp⟩)).elim, fun n hx => (h (by subst hx; exact ⟨by simp, by simp, by simp⟩)).elim,
    fun _ _ _ hx => (h (by subst hx; exact ⟨by simp, by simp, by simp⟩)).elim⟩

theorem composed_small {x : AsnVal} (h : ¬ Flat x) : SmallHere x :=
  ⟨fun n hx => (h (by subst hx; exact ⟨by simp, by simp, by simp⟩)).elim, fun n hx => (h (by subst hx; exact ⟨by simp, by simp, by simp⟩)).elim,
    fun _ _ _ hx => (h (by subst hx; exact ⟨by simp, by simp, by simp⟩)).elim⟩

theorem record_composed {vs : List (Option AsnVal)} : ¬ Flat (.record vs) := fun h => h.1 _ rfl
theorem list_composed {vs : List AsnVal} : ¬ Flat (.list vs) := fun h => h.2.1 _ rfl
theorem choice_composed {n : Str} {x : AsnVal} : ¬ Flat (.choice n x) := fun h => h.2.2 _ _ rfl

theorem blank_timeVal {t : MTy} {x : AsnVal} {τ : AsnTime} (h : Blank l r t x) (hx : x = .time τ) : τ = ⟨1, 1, 1, 0, 0, 0⟩ := by
  refine Blank.rec (motive_1 := fun _ x _ => x = .time τ → τ = ⟨1, 1, 1, 0, 0, 0⟩) (motive_2 := fun _ _ _ => True)
    ?_ ?_ ?_ ?_ ?_ ?_ ?_ ?_ ?_ ?_ ?_ ?_ ?_ ?_ h hx
  all_goals intros
  all_goals first
    | trivial
    | (rename_i h; cases h; done)
    | (rename_i h; cases h; rfl)
    | (rename_i ih h; exact ih h)

theorem means_timeRef {a : Str} (h : TimeRef l a) {v : GoVal} {x : AsnVal} (hm : Means l (held strict u l d r f) (.ref a) v x) :
    ∃ t : AsnTime, x = .time t ∧ v = .time ⟨t.year, t.month, t.day, t.hour, t.minute, t.second, 0⟩ := by
  induction h generalizing v x with
  | here h =>
    cases hm with
    | time t h1 h2 => exact ⟨t, rfl, rfl⟩
    | ref _ t _ _ h1 _ => exact absurd h1 (h t)
  | ref a b t h1 h2 _ ih =>
    cases hm with
    | time _ h3 _ => exact absurd h1 (h3 t)
    | ref _ t' _ _ h3 h4 =>
      cases assigned_unique h1 h3
      have h5 := means_unconstrained h4
      rw [h2] at h5
      exact ih h5

theorem sound_timeVal {t : MTy} (τ : AsnTime) : Sound l r t (.time ⟨τ.year, τ.month, τ.day, τ.hour, τ.minute, τ.second, 0⟩) (.time τ) := by
  refine ⟨flat_told ⟨by simp, by simp, by simp⟩, fun h => ?_, flat_fits ⟨by simp, by simp, by simp⟩ (by simp) (by simp) (by simp) (by simp) (by simp),
    fun _ => flat_small ⟨by simp, by simp, by simp⟩ (by simp) (by simp) (by simp)⟩
  rw [blank_timeVal h rfl]
  decide

/-! ### References, constraints, tags, CHOICE -/

theorem sound_ref (cx : Ctx u l d r f strict op s) (a : Str) (t : MTy) (v : GoVal) (x : AsnVal) (ha : Assigned l a t) (hm : Means l (held strict u l d r f) t v x)
    (ih : SoundStmt u l d r f strict op s t v x) : SoundStmt u l d r f strict op s (.ref a) v x := by
  intro pos e hok hg hty
  rw [EncOk] at hok
  have hty' := typedAt_not hty (.inr (not_marks (.done _ (by simp) (by simp)) (by simp) (by simp) (by simp) (by simp)))
  rcases hok with h | ⟨-, h⟩
  · obtain ⟨t', e', h1, h2, h3⟩ := typed_ref cx h hg hty'
    cases assigned_unique ha h1
    obtain ⟨t', h4, h5⟩ := cx.closed a h
    cases assigned_unique ha h4
    have hs := ih .assignment e' h5 h2 h3
    have hp : ∀ t' y, Seen l (.ref a) x t' y → ∃ t'', Seen l t x t'' y := fun t' y hp => by
      cases hp with
      | here => exact ⟨_, .here _ _⟩
      | ref _ t' _ _ _ h1 h2 => cases assigned_unique ha h1; exact ⟨_, h2⟩
    refine ⟨(?_ : OptionalsTold l r (.ref a) x), fun hb => ?_, (fun t' y h => (hp t' y h).elim fun _ h => hs.fits _ _ h),
      fun hn t' y h => (hp t' y h).elim fun _ h => hs.small hn _ _ h⟩
    · rintro a' b vs (hp | hp)
      · cases hp with
        | ref _ t' _ _ _ h1 h2 => cases assigned_unique ha h1; exact hs.told _ _ _ (.inl h2)
      · cases hp with
        | ref _ t' _ _ _ h1 h2 => cases assigned_unique ha h1; exact hs.told _ _ _ (.inr h2)
    · cases hb with
      | time hn => exact absurd ha (hn t)
      | ref _ t' _ h1 h2 => cases assigned_unique ha h1; exact hs.blank h2
  · obtain ⟨τ, rfl, rfl⟩ := means_timeRef h (.ref _ _ _ _ ha hm)
    exact sound_timeVal τ

theorem sound_wrap {t t' : MTy} {v : GoVal} {x : AsnVal} (h1 : ∀ {t0 y}, Seen l t' x t0 y → Seen l t x t0 y ∨ (t0 = t' ∧ y = x)) (h2 : Blank l r t' x → Blank l r t x)
    (h3 : ∀ a b, t' ≠ .sequence a b) (h4 : ∀ a b, t' ≠ .set a b) (h : Sound l r t v x) : Sound l r t' v x := by
  have hp : ∀ t0 y, Seen l t' x t0 y → ∃ t1, Seen l t x t1 y := fun t0 y hp => by
    rcases h1 hp with hp | ⟨-, rfl⟩
    · exact ⟨_, hp⟩
    · exact ⟨_, .here _ _⟩
  refine ⟨?_, fun hb => h.blank (h2 hb), (fun _ _ hy => (hp _ _ hy).elim fun _ hy => h.fits _ _ hy), fun hn _ _ hy => (hp _ _ hy).elim fun _ hy => h.small hn _ _ hy⟩
  rintro a b vs (hp | hp)
  · rcases h1 hp with hp | ⟨hp, -⟩
    · exact h.told _ _ _ (.inl hp)
    · exact absurd hp.symm (h3 _ _)
  · rcases h1 hp with hp | ⟨hp, -⟩
    · exact h.told _ _ _ (.inr hp)
    · exact absurd hp.symm (h4 _ _)

theorem sound_constrained {t : MTy} {c : Constraint DefinedValue (Value DefinedValue)} {v : GoVal} {x : AsnVal} (h : Sound l r t v x) :
    Sound l r (.constrained t c) v x := by
  refine sound_wrap (fun hp => ?_) (fun hb => ?_) (by simp) (by simp) h
  · cases hp with
    | here => exact .inr ⟨rfl, rfl⟩
    | constrained _ _ _ _ _ h => exact .inl h
  · cases hb with
    | constrained _ _ _ h => exact h

theorem sound_tagged {t : MTy} {g : Tag DefinedValue} {k : Int} {b : Bool} {v : GoVal} {x : AsnVal} (h : Sound l r t v x) :
    Sound l r (.tagged g t k b) v x := by
  refine sound_wrap (fun hp => ?_) (fun hb => ?_) (by simp) (by simp) h
  · cases hp with
    | here => exact .inr ⟨rfl, rfl⟩
    | tagged _ _ _ _ _ _ _ h => exact .inl h
  · cases hb with
    | tagged _ _ _ _ _ h => exact h

theorem sound_choice {n : Str} {t : MTy} {e : List MTy} {v : GoVal} {x : AsnVal} (h : Sound l r t v x) : Sound l r (.choice [.mk n t] e) v (.choice n x) := by
  refine ⟨?_, fun hb => ?_, fun t' y hp => ?_, fun hn t' y hp => ?_⟩
  · rintro a b vs (hp | hp)
    · cases hp with
      | choice _ _ _ t' _ _ _ _ h1 h2 => simp at h1; subst h1; exact h.told _ _ _ (.inl h2)
    · cases hp with
      | choice _ _ _ t' _ _ _ _ h1 h2 => simp at h1; subst h1; exact h.told _ _ _ (.inr h2)
  · cases hb with
    | choice _ _ _ _ _ h1 => exact h.blank h1
  · cases hp with
    | here => exact composed_fits choice_composed
    | choice _ _ _ t' _ _ _ _ h1 h2 => simp at h1; subst h1; exact h.fits _ _ h2
  · cases hp with
    | here => exact composed_small choice_composed
    | choice _ _ _ t' _ _ _ _ h1 h2 => simp at h1; subst h1; exact h.small hn _ _ h2

theorem sound_alternative {alts : List MNamed} {n : Str} {t : MTy} {e : List MTy} {v : GoVal} {x : AsnVal} (hl : alts.length ≠ 1)
    (hm : NamedType.mk n t ∈ alts) (hd : DifferentNames alts) (h : Sound l r t v x) : Sound l r (.choice alts e) v.boxed (.choice n x) := by
  refine ⟨?_, fun hb => ?_, fun t' y hp => ?_, fun hn t' y hp => ?_⟩
  · rintro a b vs (hp | hp)
    · cases hp with
      | choice _ _ _ t' _ _ _ _ h1 h2 => cases hd _ _ _ hm h1; exact h.told _ _ _ (.inl h2)
    · cases hp with
      | choice _ _ _ t' _ _ _ _ h1 h2 => cases hd _ _ _ hm h1; exact h.told _ _ _ (.inr h2)
  · cases hb with
    | choice _ _ _ _ _ h1 => exact absurd rfl hl
  · cases hp with
    | here => exact composed_fits choice_composed
    | choice _ _ _ t' _ _ _ _ h1 h2 => cases hd _ _ _ hm h1; exact h.fits _ _ h2
  · have hn' : Narrow v := by cases v <;> simpa [GoVal.boxed, Narrow] using hn
    cases hp with
    | here => exact composed_small choice_composed
    | choice _ _ _ t' _ _ _ _ h1 h2 => cases hd _ _ _ hm h1; exact h.small hn' _ _ h2

/-- What is held in an `asn1.RawValue` has no parts, and is not its zero value. -/
theorem sound_raw {alts : List MNamed} {e : List MTy} {v : GoVal} {n : Str} {x : AsnVal} (hs : SomeTagged l alts) : Sound l r (.choice alts e) v (.choice n x) := by
  refine ⟨?_, fun hb => ?_, fun t' y hp => ?_, fun hn t' y hp => ?_⟩
  · rintro a b vs (hp | hp) <;> cases hp <;> exact absurd hs (by assumption)
  · cases hb with
    | choice _ _ _ _ h _ => exact absurd hs (some_tagged h)
  · cases hp with
    | here => exact composed_fits choice_composed
    | choice _ _ _ t' _ _ _ h => exact absurd hs h
  · cases hp with
    | here => exact composed_small choice_composed
    | choice _ _ _ t' _ _ _ h => exact absurd hs h

/-! ### All types -/

theorem sound_record {fs : List GoFieldVal} {a b : List MComponent} {vs : List (Option AsnVal)}
    (h : (∀ m y, (m, some y) ∈ (members (a ++ b)).zip vs → OptionalsTold l r m.type y ∧ (m.optional = true → ¬ Blank l r m.type y)) ∧
      (BlankMembers l r (members (a ++ b)) vs → fieldsZero fs = true) ∧ (∀ m x, (m, some x) ∈ (members (a ++ b)).zip vs → Fits l r m.type x) ∧
      (NarrowFields fs → ∀ m x, (m, some x) ∈ (members (a ++ b)).zip vs → ReadSmall l m.type x)) :
    Sound l r (.sequence a b) (.struct fs) (.record vs) ∧ Sound l r (.set a b) (.struct fs) (.record vs) := by
  refine ⟨⟨?_, fun hb => ?_, fun t' y hp => ?_, fun hn t' y hp => ?_⟩, ⟨?_, fun hb => ?_, fun t' y hp => ?_, fun hn t' y hp => ?_⟩⟩
  · rintro a' b' vs' (hp | hp)
    · cases hp with
      | here => exact fun m y hm ho => (h.1 m y hm).2 ho
      | sequence _ _ _ m _ y _ h1 h2 => exact (h.1 m y h1).1 _ _ _ (.inl h2)
    · cases hp with
      | sequence _ _ _ m _ y _ h1 h2 => exact (h.1 m y h1).1 _ _ _ (.inr h2)
  · cases hb with
    | sequence _ _ _ h1 => rw [GoVal.isZero]; exact h.2.1 h1
  · cases hp with
    | here => exact composed_fits record_composed
    | sequence _ _ _ m _ y _ h1 h2 => exact h.2.2.1 m y h1 _ _ h2
  · rw [Narrow] at hn
    cases hp with
    | here => exact composed_small record_composed
    | sequence _ _ _ m _ y _ h1 h2 => exact h.2.2.2 hn m y h1 _ _ h2
  · rintro a' b' vs' (hp | hp)
    · cases hp with
      | set _ _ _ m _ y _ h1 h2 => exact (h.1 m y h1).1 _ _ _ (.inl h2)
    · cases hp with
      | here => exact fun m y hm ho => (h.1 m y hm).2 ho
      | set _ _ _ m _ y _ h1 h2 => exact (h.1 m y h1).1 _ _ _ (.inr h2)
  · cases hb with
    | set _ _ _ h1 => rw [GoVal.isZero]; exact h.2.1 h1
  · cases hp with
    | here => exact composed_fits record_composed
    | set _ _ _ m _ y _ h1 h2 => exact h.2.2.1 m y h1 _ _ h2
  · rw [Narrow] at hn
    cases hp with
    | here => exact composed_small record_composed
    | set _ _ _ m _ y _ h1 h2 => exact h.2.2.2 hn m y h1 _ _ h2

theorem sound_elems {t : MTy} {n : Str} {z : Bool} {l' : List GoVal} {vs : List AsnVal}
    (h : (∀ x ∈ vs, OptionalsTold l r t x ∧ Fits l r t x) ∧ (NarrowElems l' → ∀ x ∈ vs, ReadSmall l t x)) :
    Sound l r (.sequenceOf t) (.slice n z l') (.list vs) ∧ Sound l r (.setOf t) (.slice n z l') (.list vs) := by
  obtain ⟨h, hs⟩ := h
  refine ⟨⟨?_, (fun hb => by cases hb), fun t' y hp => ?_, fun hn t' y hp => ?_⟩, ⟨?_, (fun hb => by cases hb), fun t' y hp => ?_, fun hn t' y hp => ?_⟩⟩
  · rintro a' b' vs' (hp | hp)
    · cases hp with
      | sequenceOf _ _ _ y _ h1 h2 => exact (h y h1).1 _ _ _ (.inl h2)
    · cases hp with
      | sequenceOf _ _ _ y _ h1 h2 => exact (h y h1).1 _ _ _ (.inr h2)
  · cases hp with
    | here => exact composed_fits list_composed
    | sequenceOf _ _ _ y _ h1 h2 => exact (h y h1).2 _ _ h2
  · rw [Narrow] at hn
    cases hp with
    | here => exact composed_small list_composed
    | sequenceOf _ _ _ y _ h1 h2 => exact hs hn y h1 _ _ h2
  · rintro a' b' vs' (hp | hp)
    · cases hp with
      | setOf _ _ _ y _ h1 h2 => exact (h y h1).1 _ _ _ (.inl h2)
    · cases hp with
      | setOf _ _ _ y _ h1 h2 => exact (h y h1).1 _ _ _ (.inr h2)
  · cases hp with
    | here => exact composed_fits list_composed
    | setOf _ _ _ y _ h1 h2 => exact (h y h1).2 _ _ h2
  · rw [Narrow] at hn
    cases hp with
    | here => exact composed_small list_composed
    | setOf _ _ _ y _ h1 h2 => exact hs hn y h1 _ _ h2

theorem sound_aux (cx : Ctx u l d r f strict op s) {t : MTy} {v : GoVal} {x : AsnVal} (h : Means l (held strict u l d r f) t v x) :
    SoundStmt u l d r f strict op s t v x ∧ SoundField u l d r f strict op s t v x := by
  have both : ∀ {t v x}, (∀ g t' k b, t ≠ .tagged g t' k b) → (∀ t' c, t ≠ .constrained t' c) → SoundStmt u l d r f strict op s t v x →
      SoundStmt u l d r f strict op s t v x ∧ SoundField u l d r f strict op s t v x := fun h1 h2 h =>
    ⟨h, fun e hok hg hty => h .component e (tagged_core (.done _ h1 h2) hok) hg (typedAt_of hty (.inl (by decide)))⟩
  have flat : ∀ {t v x}, (∀ g t' k b, t ≠ .tagged g t' k b) → (∀ t' c, t ≠ .constrained t' c) → (∀ t', t ≠ .setOf t') → (∀ t', t ≠ .sequenceOf t') →
      (∀ a b, t ≠ .set a b) → (∀ a e, t ≠ .choice a e) → Flat x → (Blank l r t x → v.isZero = true) → (Small v → Fits l r t x) → (Narrow v → ReadSmall l t x) →
      SoundStmt u l d r f strict op s t v x ∧ SoundField u l d r f strict op s t v x := fun h1 h2 h3 h4 h5 h6 h7 h8 h9 h10 =>
    both h1 h2 fun pos e _ _ hty => ⟨flat_told h7, h8, h9 (typed_small (typedAt_not hty (.inr (not_marks (.done _ h1 h2) h5 h3 h4 h6)))), h10⟩
  have other : ∀ {t : MTy} {x : AsnVal}, Flat x → (∀ n, x ≠ .integer n) → (∀ n, x ≠ .enumerated n) → (∀ b, x ≠ .bits b) → (∀ o, x ≠ .oid o) → Fits l r t x :=
    fun hf h1 h2 h3 h4 => flat_fits hf (fun n h => absurd h (h1 n)) (fun n h => absurd h (h2 n)) (fun n h => absurd h (h3 n)) (fun n h => absurd h (h4 n))
      fun _ _ _ h => absurd h (h4 _)
  have easy : ∀ {t : MTy} {x : AsnVal}, Flat x → (∀ n, x ≠ .enumerated n) → (∀ o, x ≠ .oid o) → ReadSmall l t x :=
    fun hf h1 h2 => flat_small hf (fun n h => absurd h (h1 n)) (fun n h => absurd h (h2 n)) fun _ _ _ h => absurd h (h2 _)
  refine Means.rec (motive_1 := fun t v x _ => SoundStmt u l d r f strict op s t v x ∧ SoundField u l d r f strict op s t v x)
    (motive_2 := fun xs fs vs _ => SoundMembers u l d r f strict op s xs fs vs) (motive_3 := fun t vs xs _ => SoundElems u l d r f strict op s t vs xs)
    ?_ ?_ ?_ ?_ ?_ ?_ ?_ ?_ ?_ ?_ ?_ ?_ ?_ ?_ ?_ ?_ ?_ ?_ ?_ ?_ ?_ ?_ ?_ ?_ h
  · intro b
    exact flat (by simp) (by simp) (by simp) (by simp) (by simp) (by simp) ⟨by simp, by simp, by simp⟩ (fun h => by cases h; rfl)
      (fun _ => other ⟨by simp, by simp, by simp⟩ (by simp) (by simp) (by simp) (by simp)) fun _ => easy ⟨by simp, by simp, by simp⟩ (by simp) (by simp)
  · intro nums n
    exact flat (by simp) (by simp) (by simp) (by simp) (by simp) (by simp) ⟨by simp, by simp, by simp⟩ (fun h => by cases h; rfl)
      (fun hs => flat_fits ⟨by simp, by simp, by simp⟩ (fun m h _ => by cases h; exact hs) (by simp) (by simp) (by simp) (by simp)) fun _ => easy ⟨by simp, by simp, by simp⟩ (by simp) (by simp)
  · intro nums n
    have hf : Flat (.integer n) := ⟨by simp, by simp, by simp⟩
    refine both (by simp) (by simp) fun pos e hok hg hty => ?_
    have hc : Core (.integer nums) (.integer nums) := .done _ (by simp) (by simp)
    have hr := not_big cx (.core _ _ hc (by simp)) rfl (fun c hc' => by
      rw [core_iff] at hc hc'
      cases hc'.symm.trans hc
      exact ⟨pos, hok⟩) hg (typedAt_not hty (.inr (not_marks hc (by simp) (by simp) (by simp) (by simp))))
    refine ⟨flat_told hf, fun hb => ?_, flat_fits hf (fun _ _ h => absurd h hr) (by simp) (by simp) (by simp) (by simp),
      fun _ => easy hf (by simp) (by simp)⟩
    cases hb with
    | integer _ h => exact absurd h hr
  · intro a b n
    exact flat (by simp) (by simp) (by simp) (by simp) (by simp) (by simp) ⟨by simp, by simp, by simp⟩ (fun h => by cases h; rfl)
      (fun hs => flat_fits ⟨by simp, by simp, by simp⟩ (by simp) (fun m h => by cases h; exact hs) (by simp) (by simp) (by simp))
      fun hs => flat_small ⟨by simp, by simp, by simp⟩ (fun m h => by cases h; simpa [Narrow] using hs) (by simp) (by simp)
  · intro b
    exact flat (by simp) (by simp) (by simp) (by simp) (by simp) (by simp) ⟨by simp, by simp, by simp⟩ (fun h => by cases h)
      (fun _ => other ⟨by simp, by simp, by simp⟩ (by simp) (by simp) (by simp) (by simp)) fun _ => easy ⟨by simp, by simp, by simp⟩ (by simp) (by simp)
  · intro nb b bits k h1 _ _
    exact flat (by simp) (by simp) (by simp) (by simp) (by simp) (by simp) ⟨by simp, by simp, by simp⟩ (fun h => by cases h)
      (fun hs => flat_fits ⟨by simp, by simp, by simp⟩ (by simp) (by simp) (fun m h => by cases h; exact hs) (by simp) (by simp)) fun _ => easy ⟨by simp, by simp, by simp⟩ (by simp) (by simp)
  · intro a b o _ _ h3
    exact flat (by simp) (by simp) (by simp) (by simp) (by simp) (by simp) ⟨by simp, by simp, by simp⟩ (fun h => by cases h)
      (fun hs => flat_fits ⟨by simp, by simp, by simp⟩ (by simp) (by simp) (by simp)
        (fun o' h n hn => by cases h; exact hs _ (List.mem_map.2 ⟨n, hn, rfl⟩)) (fun _ _ _ h => by cases h; exact h3))
      fun hs => by
        rw [Narrow] at hs
        refine flat_small ⟨by simp, by simp, by simp⟩ (by simp) (fun o' h n hn => ?_) (fun a' b' q h => ?_)
        · cases h
          have := hs.each _ (List.mem_map.2 ⟨n, hn, rfl⟩)
          simpa using this
        · cases h
          have := hs.arcs a b _ rfl
          have h4 : ((40 * a + b : Nat) : Int) ≤ 2147483647 := by push_cast; exact this
          omega
  · intro k tag ok enc str _ _
    exact flat (by simp) (by simp) (by simp) (by simp) (by simp) (by simp) ⟨by simp, by simp, by simp⟩ (fun h => by cases h; rfl)
      (fun _ => other ⟨by simp, by simp, by simp⟩ (by simp) (by simp) (by simp) (by simp)) fun _ => easy ⟨by simp, by simp, by simp⟩ (by simp) (by simp)
  · intro τ _ _; exact both (by simp) (by simp) fun _ _ _ _ _ => sound_timeVal τ
  · intro a t v x h1 h2 ih; exact both (by simp) (by simp) (sound_ref cx a t v x h1 h2 ih.1)
  · intro t c v x _ ih
    refine ⟨fun pos e hok hg hty => ?_, fun e hok hg hty => ?_⟩
    · cases hg with
      | constrained _ _ _ hg =>
        exact sound_constrained (ih.1 pos e (by simpa [EncOk] using hok) hg
          ⟨fun h => hty.1 ⟨h.1, .constrained _ _ h.2⟩, fun h => hty.2 fun h' => h ⟨h'.1, by cases h'.2 with | constrained _ _ h => exact h⟩⟩)
    · cases hg with
      | constrained _ _ _ hg => exact sound_constrained (ih.2 e (by simpa [EncOkTagged] using hok) hg hty)
  · intro g t k b v x _ ih
    refine ⟨fun pos e hok => by simp [EncOk] at hok, fun e hok hg hty => ?_⟩
    rw [EncOkTagged] at hok
    cases hg with
    | tagged _ _ _ _ _ hg => exact sound_tagged (ih.1 .component e hok.2.2.2.2 hg (typedAt_of hty (.inl (by decide))))
  · intro n t ext v x hna _ ih
    refine both (by simp) (by simp) fun pos e hok hg hty => ?_
    have hok' : EncOk strict op l d r s .element t := only_ok hok hna
    have hnm : ¬ MarksSet l (.choice [.mk n t] ext) := by
      intro hm
      cases hm with
      | choice _ _ _ _ hm => exact ok_not_marks hm hok'
    cases hg with
    | rawChoice _ _ h =>
      obtain ⟨n', t', hm, ht⟩ := h
      simp at hm
      obtain ⟨-, rfl⟩ := hm
      exact absurd hok' (ok_not_tagged cx ht (by decide))
    | onlyChoice _ _ _ _ hna hg => exact sound_choice (ih.1 .element e hok' hg (typedAt_of (typedAt_not hty (.inr hnm)) (.inl (by decide))))
    | choice _ _ _ h => simp at h
  · intro alts ext n t v w x hns hl hm hB hw _ ih
    refine both (by simp) (by simp) fun pos e hok hg hty => ?_
    replace hok := choice_ok hok hns
    obtain ⟨e', h1, h2⟩ := hB
    subst hw
    exact sound_alternative hl hm (alts_several hok hl).2.1 (ih.1 .element e' (alts_mem hok hm) h1 (typedAt_of h2 (.inl (by decide))))
  · intro alts ext cls tag k b full x hst hc _
    cases hc with
    | choice _ _ _ _ _ _ _ _ h1 h2 => exact both (by simp) (by simp) fun pos e hok _ _ => sound_raw hst
  · intro a b fs vs _ ih
    refine both (by simp) (by simp) fun pos e hok hg hty => ?_
    rw [EncOk] at hok
    have hty' := typedAt_not hty (.inr (by intro hm; cases hm))
    cases hg with
    | sequence _ _ fds hf =>
      refine (sound_record (ih fds (fun y hy => ?_) hf (typed_struct hty'))).1
      rw [members_append, List.mem_append] at hy
      exact hy.elim (fun h => (encOkMembers_mem hok.1 y h).imp_right And.left) (fun h => (encOkMembers_mem hok.2 y h).imp_right And.left)
  · intro a b fs vs _ ih
    refine both (by simp) (by simp) fun pos e hok hg hty => ?_
    rw [EncOk] at hok
    obtain ⟨rfl, hok1, hok2, -⟩ := hok
    have hty' := typedAt_not hty (.inl (by decide))
    cases hg with
    | set _ _ fds hf =>
      refine (sound_record (ih fds (fun y hy => ?_) hf (typed_struct hty'))).2
      rw [members_append, List.mem_append] at hy
      exact hy.elim (fun h => (encOkMembers_mem hok1 y h).imp_right And.left) (fun h => (encOkMembers_mem hok2 y h).imp_right And.left)
  · intro t n z vs xs _ ih
    refine both (by simp) (by simp) fun pos e hok hg hty => ?_
    have hok' : EncOk strict op l d r s .element t := by simpa [EncOk] using hok
    have hnm : ¬ MarksSet l (.sequenceOf t) := by
      intro hm
      cases hm with
      | sequenceOf _ hm => exact ok_not_marks hm hok'
    cases hg with
    | sequenceOf _ e hg =>
      obtain ⟨z', vs', h1, h2⟩ := typed_slice (typedAt_not hty (.inr hnm)) (by simp)
      cases h1
      exact (sound_elems (ih e hok' hg h2)).1
  · intro t n z vs xs _ ih
    refine both (by simp) (by simp) fun pos e hok hg hty => ?_
    rw [EncOk] at hok
    cases hg with
    | setOf _ e hg =>
      refine (sound_elems (ih e hok.2 hg ?_)).2
      cases pos with
      | element => exact absurd rfl hok.1
      | assignment =>
        obtain ⟨v0, m, h1, h2⟩ := hty.1 ⟨rfl, .setOf _⟩
        have hb : ∀ b, v0 ≠ .bytes b := by rintro b rfl; simp [GoVal.named] at h2
        obtain ⟨z', vs', rfl, h3⟩ := typed_slice h1 hb
        simp only [GoVal.named, GoVal.slice.injEq] at h2
        obtain ⟨rfl, rfl, rfl⟩ := h2
        exact h3
      | component =>
        obtain ⟨z', vs', h1, h2⟩ := typed_slice (typedAt_not hty (.inl (by decide))) (by simp)
        cases h1
        exact h2
  · intro fds _ _ _
    exact ⟨fun m y h => (by simp at h), fun _ => rfl, fun m x h => (by simp at h), fun _ m x h => (by simp at h)⟩
  · intro x xs n tag v fs a vs hz hm' _ ih1 ih2 fds hok hf hty
    cases hf with
    | cons _ _ e tag' fds hg htag hf =>
      cases hty with
      | cons _ _ _ _ _ _ hty1 hty2 =>
        have h1 := ih1.2 e (hok x (by simp)).1 hg hty1
        have h2 := ih2 fds (fun y hy => hok y (by simp [hy])) hf hty2
        refine ⟨fun m y hm => ?_, fun hb => ?_, fun m y hy => ?_, fun hn m y hy => ?_⟩
        · rw [List.zip_cons_cons, List.mem_cons] at hm
          rcases hm with hm | hm
          · cases hm
            refine ⟨h1.told, fun ho hb => ?_⟩
            have h3 := h1.blank hb
            rw [hz ho] at h3
            cases h3
          · exact h2.1 m y hm
        · cases hb with
          | present _ _ _ _ hb1 hb2 => rw [fieldsZero, h1.blank hb1, h2.2.1 hb2]; rfl
        · rw [List.zip_cons_cons, List.mem_cons] at hy
          rcases hy with hy | hy
          · cases hy; exact h1.fits
          · exact h2.2.2.1 m y hy
        · rw [NarrowFields] at hn
          rw [List.zip_cons_cons, List.mem_cons] at hy
          rcases hy with hy | hy
          · cases hy
            rcases hn.1 with hn' | ⟨hn', k, rfl⟩
            · exact h1.small hn'
            · obtain ⟨hok1, hdf⟩ := hok x (by simp)
              have hp := htag.meaning (tags_goInt hok1) (default_goInt hdf)
              cases hpd : (fieldParams tag).dflt with
              | none => exact absurd hpd hn'
              | some m =>
                obtain ⟨-, a0, h3, -⟩ := hdf _ ((hp.dflt m).1 hpd)
                cases h3 with
                | number _ nums hti => cases means_typeIs hti hm'
          · exact h2.2.2.2 hn.2 m y hy
  · intro x xs n tag v fs vs ho hz _ ih2 fds hok hf hty
    cases hf with
    | cons _ _ e tag' fds hg htag hf =>
      cases hty with
      | cons _ _ _ _ _ _ hty1 hty2 =>
        have h2 := ih2 fds (fun y hy => hok y (by simp [hy])) hf hty2
        refine ⟨fun m y hm => ?_, fun hb => ?_, fun m y hy => h2.2.2.1 m y (by simpa using hy),
          fun hn m y hy => h2.2.2.2 (by rw [NarrowFields] at hn; exact hn.2) m y (by simpa using hy)⟩
        · rw [List.zip_cons_cons, List.mem_cons] at hm
          rcases hm with hm | hm
          · cases hm
          · exact h2.1 m y hm
        · cases hb with
          | absent _ _ _ hb2 => rw [fieldsZero, hz, h2.2.1 hb2]; rfl
  · intro t e _ _ _; exact ⟨fun x hx => (by cases hx), fun _ x hx => (by cases hx)⟩
  · intro t v vs a xs _ _ ih1 ih2 e hok hg hty
    cases hty with
    | cons _ _ _ hty1 hty2 =>
      have h1 := ih1.1 .element e hok hg (typedAt_of hty1 (.inl (by decide)))
      have h2 := ih2 e hok hg hty2
      refine ⟨fun x hx => ?_, fun hn x hx => ?_⟩
      · rw [List.mem_cons] at hx
        rcases hx with rfl | hx
        · exact ⟨h1.told, h1.fits⟩
        · exact h2.1 x hx
      · rw [NarrowElems] at hn
        rw [List.mem_cons] at hx
        rcases hx with rfl | hx
        · exact h1.small hn.1
        · exact h2.2 hn.2 x hx

/-- The OPTIONAL components of the value that a Go value stands for are told. -/
theorem told_assigned (cx : Ctx u l d r f strict op s) {a : Str} (ha : s a) {v : GoVal} {x : AsnVal} (hty : Typed f (.ident (goifyName u a)) v)
    (hm : Means l (held strict u l d r f) (.ref a) v x) : OptionalsTold l r (.ref a) x ∧ (Blank l r (.ref a) x → v.isZero = true) ∧ Fits l r (.ref a) x ∧ (Narrow v → ReadSmall l (.ref a) x) := by
  obtain ⟨t, h1, h2⟩ := cx.closed a ha
  obtain ⟨e, h3, h4⟩ := typed_assigned cx h1 hty
  cases hm with
  | time _ h5 _ => exact absurd h1 (h5 t)
  | ref _ t' _ _ h5 h6 =>
    cases assigned_unique h1 h5
    have hs := (sound_aux cx h6).1 .assignment e h2 h3 h4
    have hp : ∀ t' y, Seen l (.ref a) x t' y → ∃ t'', Seen l t x t'' y := fun t' y hp => by
      cases hp with
      | here => exact ⟨_, .here _ _⟩
      | ref _ t' _ _ _ h1' h2 => cases assigned_unique h1 h1'; exact ⟨_, h2⟩
    refine ⟨?_, fun hb => ?_, (fun t' y h => (hp t' y h).elim fun _ h => hs.fits _ _ h), fun hn t' y h => (hp t' y h).elim fun _ h => hs.small hn _ _ h⟩
    · rintro a' b vs (hp | hp)
      · cases hp with
        | ref _ t' _ _ _ h1' h2 => cases assigned_unique h1 h1'; exact hs.told _ _ _ (.inl h2)
      · cases hp with
        | ref _ t' _ _ _ h1' h2 => cases assigned_unique h1 h1'; exact hs.told _ _ _ (.inr h2)
    · cases hb with
      | time hn => exact absurd h1 (hn t)
      | ref _ t' _ h1' h2 => cases assigned_unique h1 h1'; exact hs.blank h2

end Asn1go.Enco
