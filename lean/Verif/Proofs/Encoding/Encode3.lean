import Verif.Proofs.Encoding.Encode2

/-! What encoding/asn1 writes for values of generated types: structs, default values, all types together. -/

namespace Asn1go.Enco

open Asn1go Spec CG

variable {u : Casing} {l : List MAssignment} {d : Int} {r : Str} {f : GoFile} {strict : Bool} {op : Open} {s : Str → Prop}

theorem exported_goify {n : Str} (h : LowerName u n) : exported u (goifyName u n) = true := by
  obtain ⟨c, cs, rfl, hl⟩ := h.word.letter
  have hu : u.isUpper c = false := by simpa using h.lower
  have ha : c.toNat < 128 := h.ascii c (by simp)
  have ht := toTitle_lower ha hl hu
  rw [goify_word h.word, exported]
  simp only [List.head?_cons, Option.map_some]
  rw [u.upper_ascii _ (by omega)]
  simp
  omega

theorem tags_goInt {t : MTy} (h : EncOkTagged strict op l d r s t) : ∀ cls n k, (cls, Value.number n, k) ∈ tagsAround d t → GoInt n := by
  intro cls n k hm
  have aux : ∀ t, EncOkTagged strict op l d r s t → (cls, Value.number n, k) ∈ tagsAround d t → GoInt n := by
    intro t
    induction t using unconstrained.induct with
    | case1 t x ih => intro h hm; exact ih (by simpa [EncOkTagged] using h) (by simpa [tagsAround] using hm)
    | case2 t hn =>
      intro h hm
      by_cases ht : ∃ g t' k' b, t = .tagged g t' k' b
      · obtain ⟨g, t', k', b, rfl⟩ := ht
        rw [EncOkTagged] at h
        rw [tagsAround, no_tags h.2.2.2.2] at hm
        obtain ⟨m, h1, h2⟩ := h.2.1
        simp only [List.mem_cons, List.not_mem_nil, or_false, Prod.mk.injEq] at hm
        rw [h1] at hm
        have := hm.2.1
        simp only [Value.number.injEq] at this
        rw [this]
        exact h2
      · rw [EncOkTagged] at h
        · rw [no_tags h] at hm
          cases hm
        · intro g t' k' b he; exact ht ⟨_, _, _, _, he⟩
        · exact hn
  exact aux t h hm

theorem default_goInt {y : Member} (h : DefaultOk strict l r y) : ∀ n, y.default = some (.number n) → GoInt n := by
  intro n hn
  obtain ⟨-, a, h1, -, h2, -⟩ := h _ hn
  rcases h2 with ⟨m, h3, h4⟩ | rfl | ⟨-, h3⟩
  · simp only [Value.number.injEq] at h3
    rw [h3]
    exact h4
  · cases h1
  · exact absurd rfl (h3 n)

theorem makeFields_cons {n : Str} {tag : Option Str} {v : GoVal} {fs : List GoFieldVal} {b : Bytes} {bss : List Bytes} (h1 : exported u n = true)
    (h2 : makeField u v (fieldParams tag) = some b) (h3 : makeFields u fs = some bss) : makeFields u (.mk n tag v :: fs) = some (b :: bss) := by
  simp only [makeFields, h1, h2, h3]
  rfl

theorem members_nil : MembersStmt u l d r f strict op s [] [] [] := by
  intro fds _ _ _
  exact ⟨[], rfl, fun _ => ⟨[], .nil, rfl⟩⟩

theorem leftOut_zero {p : FieldParams} {v : GoVal} (h1 : p.omitEmpty = false) (h2 : p.optional = true) (h3 : p.dflt = none) : leftOut p v = v.isZero := by
  unfold leftOut; rw [h1, h2, h3]; simp

theorem zero_left {p : FieldParams} {v : GoVal} (hi : ¬ InIface v) (hl : leftOut p v = true) : makeField u v p = some [] := by
  cases v <;> first
    | exact absurd (.inl rfl) hi
    | exact absurd (.inr ⟨_, rfl⟩) hi
    | (simp only [makeField, makeValue]; rw [if_pos hl])

theorem interface_of {t c : MTy} (hc : Core t c) (h : InInterface l t) : InInterface l c := by
  induction hc with
  | tagged g t c k b _ ih => cases h with | tagged _ _ _ _ h => exact ih h
  | constrained t c x _ ih => cases h with | constrained _ _ h => exact ih h
  | done t _ _ => exact h

theorem typeIs_interface {t c : MTy} (ht : TypeIs l t c) (h : InInterface l t) : InInterface l c := by
  induction ht with
  | core t c hc _ => exact interface_of hc h
  | ref t t' c a hc ha _ ih =>
    cases interface_of hc h with
    | ref _ t'' h1 h2 => cases assigned_unique ha h1; exact ih h2

theorem default_interface {t : MTy} {dv : Value DefinedValue} {a : AsnVal} (h : DefaultIs l t dv a) : ¬ InInterface l t := by
  intro hi
  cases h with
  | number _ _ ht => cases typeIs_interface ht hi
  | boolean _ ht => cases typeIs_interface ht hi
  | named _ _ _ ht => cases typeIs_interface ht hi
  | defined _ _ _ ht => cases typeIs_interface ht hi

theorem optional_interface (cx : Ctx u l d r f strict op s) {x : Member} (hok : EncOkTagged strict op l d r s x.type)
    (hif : op.iface = true → x.optional = true → ¬ InInterface l x.type) (ho : x.optional = true) : ¬ InInterface l x.type := by
  cases hop : op.iface with
  | true => exact hif hop ho
  | false => exact no_interface_field cx hop hok

theorem params_interface (cx : Ctx u l d r f strict op s) {x : Member} {p : FieldParams} (hok : EncOkTagged strict op l d r s x.type)
    (hdf : DefaultOk strict l r x) (hif : op.iface = true → x.optional = true → ¬ InInterface l x.type) (hp : TagMeaning l d x.type x.optional x.default p)
    (hi : InInterface l x.type) : p.optional = false := by
  cases hpo : p.optional with
  | false => rfl
  | true =>
    rcases hp.optional.1 hpo with h | h
    · exact absurd hi (optional_interface cx hok hif h)
    · obtain ⟨dv, hdv⟩ := Option.ne_none_iff_exists'.1 h
      obtain ⟨-, a, h1, -⟩ := hdf dv hdv
      exact absurd hi (default_interface h1)

theorem members_absent (cx : Ctx u l d r f strict op s) (x : Member) (xs : List Member) (n : Str) (tag : Option Str) (v : GoVal) (fs : List GoFieldVal)
    (vs : List (Option AsnVal)) (ho : x.optional = true) (hz : v.isZero = true) (ih : MembersStmt u l d r f strict op s xs fs vs) :
    MembersStmt u l d r f strict op s (x :: xs) (.mk n tag v :: fs) (none :: vs) := by
  intro fds hall hf hty
  obtain ⟨hok, hdf, hmn, hname, hif⟩ := hall x (by simp)
  cases hf with
  | cons _ _ e tag' fds hg htag hf =>
    cases hty with
    | cons _ _ _ _ _ _ hty1 hty2 =>
      obtain ⟨bss, h1, h2⟩ := ih fds (fun y hy => hall y (by simp [hy])) hf hty2
      have hp := htag.meaning (tags_goInt hok) (default_goInt hdf)
      have hdn : x.default = none := by
        cases hd : x.default with
        | none => rfl
        | some dv => have := (hdf dv hd).1; rw [ho] at this; cases this
      have hpd : (fieldParams tag).dflt = none := by
        cases hpd : (fieldParams tag).dflt with
        | none => rfl
        | some m => have := (hp.dflt m).1 hpd; rw [hdn] at this; cases this
      have hleft : leftOut (fieldParams tag) v = true := by rw [leftOut_zero hp.omitEmpty (hp.optional.2 (.inl ho)) hpd, hz]
      refine ⟨[] :: bss, makeFields_cons (exported_goify hname) (zero_left (not_iface cx hok hg hty1 (optional_interface cx hok hif ho)) hleft) h1, fun hl => ?_⟩
      obtain ⟨es, h3, h4⟩ := h2 (by simpa using hl)
      exact ⟨es, .absent _ _ _ _ ho h3, by simpa using h4⟩

/-- Whether a value is left out, and if so what it is. -/
theorem left_out (cx : Ctx u l d r f strict op s) {x : Member} {p : FieldParams} {v : GoVal} {a : AsnVal} {e : GoExpr} (hok : EncOkTagged strict op l d r s x.type)
    (hdf : DefaultOk strict l r x) (hp : TagMeaning l d x.type x.optional x.default p) (hz : x.optional = true → v.isZero = false)
    (hm : Means l (held strict u l d r f) x.type v a) (hg : GoTypeOf u l d r x.type e) (hty : Typed f e v) :
    (leftOut p v = true → ∃ dv, x.default = some dv ∧ DefaultIs l x.type dv a) ∧
      (leftOut p v = false → strict = true → ∀ dv, x.default = some dv → ¬ DefaultIs l x.type dv a) := by
  cases hd : x.default with
  | none =>
    have hpd : p.dflt = none := by
      cases hpd : p.dflt with
      | none => rfl
      | some m => have := (hp.dflt m).1 hpd; rw [hd] at this; cases this
    refine ⟨fun hl => ?_, fun _ _ dv h => by cases h⟩
    cases ho : x.optional with
    | true =>
      rw [leftOut_zero hp.omitEmpty (hp.optional.2 (.inl ho)) hpd, hz ho] at hl
      cases hl
    | false =>
      have hpo : p.optional = false := by
        cases hpo : p.optional with
        | false => rfl
        | true =>
          rcases hp.optional.1 hpo with h | h
          · rw [ho] at h; cases h
          · exact absurd hd h
      rw [leftOut_required hp.omitEmpty hpo] at hl
      cases hl
  | some dv =>
    obtain ⟨hopt, a0, h1, h2, h3, h4⟩ := hdf dv hd
    have hpo : p.optional = true := hp.optional.2 (.inr (by rw [hd]; simp))
    have hint : ∀ nums, TypeIs l x.type (.integer nums) → ∃ m, a = .integer m ∧ (v = .int m ∨ (v = .big (some m) ∧ r ≠ c! "int64")) := by
      intro nums hti
      cases means_typeIs hti hm with
      | integer _ m => exact ⟨m, rfl, .inl rfl⟩
      | bigInteger _ m => exact ⟨m, rfl, .inr ⟨rfl, not_big cx hti rfl (fun c hc => ⟨_, tagged_core hc hok⟩) hg hty⟩⟩
    have hzero : p.dflt = none → a0 = .integer 0 → (∃ nums, TypeIs l x.type (.integer nums)) →
        (leftOut p v = true → ∃ dv', some dv = some dv' ∧ DefaultIs l x.type dv' a) ∧
          (leftOut p v = false → strict = true → ∀ dv', some dv = some dv' → ¬ DefaultIs l x.type dv' a) := by
      rintro hpd rfl ⟨nums, hti⟩
      rw [leftOut_zero hp.omitEmpty hpo hpd]
      obtain ⟨m, rfl, rfl | ⟨rfl, hr⟩⟩ := hint nums hti
      · simp only [GoVal.isZero]
        refine ⟨fun hl => ⟨dv, rfl, ?_⟩, fun hl _ dv' he hdi => ?_⟩
        · have : m = 0 := by simpa using hl
          subst this
          exact h1
        · cases he
          have := h2 _ hdi
          simp only [AsnVal.integer.injEq] at this
          subst this
          simp at hl
      · simp only [GoVal.isZero]
        refine ⟨fun hl => by simp at hl, fun hl hs _ _ _ => ?_⟩
        rcases h4 hs with h | h
        · exact hr h
        · cases h
    cases h1 with
    | number n nums hti =>
      have hpd : p.dflt = some n := (hp.dflt n).2 hd
      have hcalc : ∀ m, leftOut p (.int m) = (m == n) := by intro m; unfold leftOut; rw [hp.omitEmpty, hpo, hpd]; simp
      obtain ⟨m, rfl, rfl | ⟨rfl, hr⟩⟩ := hint nums hti
      · rw [hcalc]
        refine ⟨fun hl => ⟨_, rfl, ?_⟩, fun hl _ dv' he hdi => ?_⟩
        · have : m = n := by simpa using hl
          subst this
          exact .number _ _ hti
        · cases he
          have := h2 _ hdi
          simp only [AsnVal.integer.injEq] at this
          subst this
          simp at hl
      · have hbig : leftOut p (.big (some m)) = false := by unfold leftOut; rw [hp.omitEmpty, hpo, hpd]; simp
        rw [hbig]
        refine ⟨fun hl => (by cases hl), fun hl hs _ _ _ => ?_⟩
        rcases h4 hs with h | h
        · exact hr h
        · cases h
    | boolean b hti =>
      have hpd : p.dflt = none := by
        cases hpd : p.dflt with
        | none => rfl
        | some m => have := (hp.dflt m).1 hpd; rw [hd] at this; cases this
      have hb : b = false := by
        rcases h3 with ⟨m, h, -⟩ | h | ⟨h, -⟩
        · cases h
        · cases h; rfl
        · cases h
      subst hb
      rw [leftOut_zero hp.omitEmpty hpo hpd]
      cases means_typeIs hti hm with
      | boolean b =>
        simp only [GoVal.isZero]
        refine ⟨fun hl => ⟨_, rfl, ?_⟩, fun hl _ dv' he hdi => ?_⟩
        · have : b = false := by simpa using hl
          subst this
          exact .boolean _ hti
        · cases he
          have := h2 _ hdi
          simp only [AsnVal.boolean.injEq] at this
          subst this
          simp at hl
    | named y n nums hti hmem =>
      have hpd : p.dflt = none := by
        cases hpd : p.dflt with
        | none => rfl
        | some m => have := (hp.dflt m).1 hpd; rw [hd] at this; cases this
      refine hzero hpd ?_ ⟨nums, hti⟩
      rcases h3 with ⟨m, h, -⟩ | h | ⟨h, -⟩
      · cases h
      · cases h
      · exact h
    | defined y n nums hti hmem =>
      have hpd : p.dflt = none := by
        cases hpd : p.dflt with
        | none => rfl
        | some m => have := (hp.dflt m).1 hpd; rw [hd] at this; cases this
      refine hzero hpd ?_ ⟨nums, hti⟩
      rcases h3 with ⟨m, h, -⟩ | h | ⟨h, -⟩
      · cases h
      · cases h
      · exact h

theorem members_present (cx : Ctx u l d r f strict op s) (x : Member) (xs : List Member) (n : Str) (tag : Option Str) (v : GoVal) (fs : List GoFieldVal)
    (a : AsnVal) (vs : List (Option AsnVal)) (hz : x.optional = true → v.isZero = false) (hm : Means l (held strict u l d r f) x.type v a)
    (ih1 : FieldStmt u l d r f strict op s x.type v a) (ih : MembersStmt u l d r f strict op s xs fs vs) :
    MembersStmt u l d r f strict op s (x :: xs) (.mk n tag v :: fs) (some a :: vs) := by
  intro fds hall hf hty
  obtain ⟨hok, hdf, hmn, hname, hif⟩ := hall x (by simp)
  cases hf with
  | cons _ _ e tag' fds hg htag hf =>
    cases hty with
    | cons _ _ _ _ _ _ hty1 hty2 =>
      obtain ⟨bss, h1, h2⟩ := ih fds (fun y hy => hall y (by simp [hy])) hf hty2
      have hp := htag.meaning (tags_goInt hok) (default_goInt hdf)
      obtain ⟨bs, h3, h4⟩ := ih1 e _ _ _ hok hmn hg hty1 hp (params_interface cx hok hdf hif hp)
      obtain ⟨h5, h6⟩ := left_out cx hok hdf hp hz hm hg hty1
      cases hleft : leftOut (fieldParams tag) v with
      | true =>
        rw [hleft, if_pos rfl] at h3
        obtain ⟨dv, h7, h8⟩ := h5 hleft
        refine ⟨[] :: bss, makeFields_cons (exported_goify hname) h3 h1, fun hl => ?_⟩
        obtain ⟨es, h9, h10⟩ := h2 (by simpa using hl)
        exact ⟨es, .default _ _ _ _ _ _ h7 h8 h9, by simpa using h10⟩
      | false =>
        rw [hleft, if_neg (by simp)] at h3
        refine ⟨bs :: bss, makeFields_cons (exported_goify hname) h3 h1, fun hl => ?_⟩
        rw [List.flatten_cons, List.length_append] at hl
        obtain ⟨es, h9, h10⟩ := h2 (by omega)
        obtain ⟨tag, k, c, h11, h12⟩ := h4 (by omega)
        exact ⟨(tag, bs) :: es, .present _ _ _ _ _ _ _ _ _ h11 h12 (h6 hleft) h9, by rw [List.flatMap_cons, h10, List.flatten_cons]⟩

/-! ### All types -/

theorem encode_aux (cx : Ctx u l d r f strict op s) {t : MTy} {v : GoVal} {x : AsnVal} (h : Means l (held strict u l d r f) t v x) :
    CoreStmt u l d r f strict op s t v x ∧ FieldStmt u l d r f strict op s t v x := by
  have both : ∀ {t v x}, (∀ g t' k b, t ≠ .tagged g t' k b) → (∀ t' c, t ≠ .constrained t' c) → CoreStmt u l d r f strict op s t v x →
      CoreStmt u l d r f strict op s t v x ∧ FieldStmt u l d r f strict op s t v x := fun h1 h2 h => ⟨h, field_of_core h1 h2 h⟩
  refine Means.rec (motive_1 := fun t v x _ => CoreStmt u l d r f strict op s t v x ∧ FieldStmt u l d r f strict op s t v x)
    (motive_2 := fun xs fs vs _ => MembersStmt u l d r f strict op s xs fs vs) (motive_3 := fun t vs xs _ => ElemsStmt u l d r f strict op s t vs xs)
    ?_ ?_ ?_ ?_ ?_ ?_ ?_ ?_ ?_ ?_ ?_ ?_ ?_ ?_ ?_ ?_ ?_ ?_ ?_ ?_ ?_ ?_ ?_ ?_ h
  · intro b; exact both (by simp) (by simp) (core_boolean b)
  · intro nums n; exact both (by simp) (by simp) (core_integer nums n)
  · intro nums n; exact both (by simp) (by simp) (core_bigInteger nums n)
  · intro a b n; exact both (by simp) (by simp) (core_enumerated a b n)
  · intro b; exact both (by simp) (by simp) (core_octetString b)
  · intro nb b bits k h1 h2 h3; exact both (by simp) (by simp) (core_bitString nb b bits k h1 h2 h3)
  · intro a b o h1 h2 h3; exact both (by simp) (by simp) (core_objectIdentifier a b o h1 h2 h3)
  · intro k tag ok enc str h1 h2; exact both (by simp) (by simp) (core_string k tag ok enc str h1 h2)
  · intro t h1 h2; exact both (by simp) (by simp) (core_time cx t h1 h2)
  · intro a t v x h1 h2 ih; exact both (by simp) (by simp) (core_ref cx a t v x h1 h2 ih.1)
  · intro t c v x _ ih; exact ⟨core_constrained t c v x ih.1, field_constrained t c v x ih.2⟩
  · intro g t k b v x _ ih; exact ⟨fun pos e p hok => by simp [EncOk] at hok, field_tagged g t k b v x ih.1⟩
  · intro n t e v x hna _ ih; exact both (by simp) (by simp) (core_choice n t e v x hna ih.1)
  · intro alts e n t v w x hna hl hm hB hw _ ih; exact both (by simp) (by simp) (core_alternative alts e n t v w x hna hl hm hB hw ih.1)
  · intro alts e cls tag k b full x ht hc hf; exact both (by simp) (by simp) (core_raw alts e cls tag k b full x ht hc hf)
  · intro a b fs vs _ ih; exact both (by simp) (by simp) (core_sequence a b fs vs ih)
  · intro a b fs vs _ ih; exact both (by simp) (by simp) (core_set a b fs vs ih)
  · intro t n z vs xs _ ih; exact both (by simp) (by simp) (core_sequenceOf t n z vs xs ih)
  · intro t n z vs xs _ ih; exact both (by simp) (by simp) (core_setOf t n z vs xs ih)
  · exact members_nil
  · intro x xs n tag v fs a vs h1 h2 _ ih1 ih2; exact members_present cx x xs n tag v fs a vs h1 h2 ih1.2 ih2
  · intro x xs n tag v fs vs h1 h2 _ ih; exact members_absent cx x xs n tag v fs vs h1 h2 ih
  · intro t; exact elems_nil t
  · intro t v vs a xs _ _ ih1 ih2; exact elems_cons t v vs a xs ih1.1 ih2

/-- Values of assigned types are encoded as they should. -/
theorem encode_assigned (cx : Ctx u l d r f strict op s) {a : Str} (ha : s a) {v : GoVal} {x : AsnVal} (hty : Typed f (.ident (goifyName u a)) v)
    (hm : Means l (held strict u l d r f) (.ref a) v x) : ∃ bs, marshal u v = some bs ∧ (bs.length ≤ maxLength → Encodes strict l d (.ref a) x bs) := by
  obtain ⟨t, h1, h2⟩ := cx.closed a ha
  obtain ⟨e, h3, h4⟩ := typed_assigned cx h1 hty
  cases hm with
  | time _ h5 _ => exact absurd h1 (h5 t)
  | ref _ t' _ _ h5 h6 =>
    cases assigned_unique h1 h5
    obtain ⟨bs, h7, h8⟩ := good_alone rfl ((encode_aux cx h6).1 .assignment e {} h2 (cx.members _ _ (assigned_mem h1)) h3 h4
      (neutral_at neutral_empty (by decide)) (fun _ => rfl))
    rw [leftOut_empty, if_neg (by simp)] at h7
    refine ⟨_, h7, fun hl => ?_⟩
    obtain ⟨tag, k, c, h9, h10⟩ := h8 hl
    exact ⟨tag, k, c, .ref _ _ _ _ _ _ h1 h9, h10⟩

end Asn1go.Enco
