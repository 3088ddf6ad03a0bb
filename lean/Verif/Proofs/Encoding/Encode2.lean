import Verif.Proofs.Encoding.Encode

/-! What encoding/asn1 writes for values of generated types: components, elements, and all types together. -/

namespace Asn1go.Enco

open Asn1go Spec CG

variable {u : Casing} {l : List MAssignment} {d : Int} {r : Str} {f : GoFile} {strict : Bool} {op : Open} {s : Str → Prop}

/-! ### Elements -/

theorem leftOut_empty (v : GoVal) : leftOut {} v = false := rfl

theorem elems_nil (t : MTy) : ElemsStmt u l d r f strict op s t [] [] := by
  intro e _ _ _ _
  exact ⟨[], rfl, fun _ => .nil _⟩

theorem neutral_empty : Neutral {} := ⟨rfl, rfl, rfl, rfl⟩

/-- Without tags of a field. -/
theorem good_alone {t : MTy} {v : GoVal} {x : AsnVal} {p : FieldParams} (hp : p.tag = none) (h : Good u l d strict t v x p) : GoodField u l d strict t v x p := by
  rcases h with ⟨tag, k, body, h1, h2⟩ | ⟨-, h⟩
  · refine ⟨_, h1, fun hl => ?_⟩
    have hb : body.length ≤ maxLength := by have := addTags_length (p := p) (tag := tag) (k := k) (body := body); omega
    refine ⟨⟨0, tag⟩, k, body, h2 hb, ?_⟩
    rw [addTags, hp]
    exact header_spec 0 tag k body (by decide) hb
  · exact h

theorem elems_cons (t : MTy) (v : GoVal) (vs : List GoVal) (x : AsnVal) (xs : List AsnVal) (ih1 : CoreStmt u l d r f strict op s t v x)
    (ih2 : ElemsStmt u l d r f strict op s t vs xs) : ElemsStmt u l d r f strict op s t (v :: vs) (x :: xs) := by
  intro e hok hmn hg hty
  cases hty with
  | cons _ _ _ hty1 hty2 =>
    obtain ⟨bs, h1, h2⟩ := good_alone rfl (ih1 .element e {} hok hmn hg (typedAt_of hty1 (.inl (by decide))) (neutral_at neutral_empty (by decide))
      (fun _ => rfl))
    obtain ⟨bss, h3, h4⟩ := ih2 e hok hmn hg hty2
    rw [leftOut_empty, if_neg (by simp)] at h1
    refine ⟨bs :: bss, by simp only [makeElems, h1, h3], fun hl => ?_⟩
    rw [List.flatten_cons, List.length_append] at hl
    obtain ⟨tag, k, body, h5, h6⟩ := h2 (by omega)
    exact .cons _ _ _ _ _ _ _ _ h5 h6 (h4 (by omega))

theorem sort_flatten (bss : List Bytes) : (sortBytes bss).flatten.length = bss.flatten.length := by
  have := (sort_perm bss).flatten.length_eq
  exact this

theorem typed_slice {e : GoExpr} {v : GoVal} (h : Typed f (.array e) v) (hb : ∀ b, v ≠ .bytes b) : ∃ z vs, v = .slice [] z vs ∧ TypedElems f e vs := by
  cases h with
  | bytes b _ => exact absurd rfl (hb b)
  | slice _ z vs _ _ h => exact ⟨z, vs, rfl, h⟩

theorem core_sequenceOf (t : MTy) (n : Str) (z : Bool) (vs : List GoVal) (xs : List AsnVal) (ih : ElemsStmt u l d r f strict op s t vs xs) :
    CoreStmt u l d r f strict op s (.sequenceOf t) (.slice n z vs) (.list xs) := by
  intro pos e p hok hmn hg hty hp hi
  have hok' : EncOk strict op l d r s .element t := by simpa [EncOk] using hok
  have hn := params_neutral hp (by simp [core_iff, removeWrapperTypes]) (by simp [core_iff, removeWrapperTypes]) (by simp [core_iff, removeWrapperTypes])
    (by simp [core_iff, removeWrapperTypes])
  have hnm : ¬ MarksSet l (.sequenceOf t) := by
    intro hm
    cases hm with
    | sequenceOf _ hm => exact ok_not_marks hm hok'
  cases hg with
  | sequenceOf _ e hg =>
    obtain ⟨z', vs', h1, h2⟩ := typed_slice (typedAt_not hty (.inr hnm)) (by simp)
    cases h1
    obtain ⟨bss, h3, h4⟩ := ih e hok' (fun a b h => hmn a b (h.imp (.sequenceOf _ _) (.sequenceOf _ _))) hg h2
    refine .inl ⟨16, true, bss.flatten, ?_, fun hl => .sequenceOf _ _ _ (h4 hl)⟩
    rw [makeField, h3]
    refine makeValue_eq (tag := 16) (by simp [universalType]) (choose_neutral hn (by simp) (by simp)) ?_
    rw [makeBody, Option.map_some, hn.set]
    rfl

theorem core_setOf (t : MTy) (n : Str) (z : Bool) (vs : List GoVal) (xs : List AsnVal) (ih : ElemsStmt u l d r f strict op s t vs xs) :
    CoreStmt u l d r f strict op s (.setOf t) (.slice n z vs) (.list xs) := by
  intro pos e p hok hmn hg hty hp hi
  rw [EncOk] at hok
  have hok' := hok.2
  cases hg with
  | setOf _ e hg =>
    have key : TypedElems f e vs → (∃ tag, universalType (.slice n z vs) = some (tag, true) ∧ chooseTag p (.slice n z vs) tag = some 17) →
        Good u l d strict (.setOf t) (.slice n z vs) (.list xs) p := by
      rintro h2 ⟨tag, h5, h6⟩
      obtain ⟨bss, h3, h4⟩ := ih e hok' (fun a b h => hmn a b (h.imp (.setOf _ _) (.setOf _ _))) hg h2
      refine .inl ⟨17, true, (sortBytes bss).flatten, ?_, fun hl => .setOf _ _ _ _ (h4 (by rw [sort_flatten] at hl; exact hl)) (sort_perm _) fun _ => sort_padded _⟩
      rw [makeField, h3]
      refine makeValue_eq h5 h6 ?_
      rw [makeBody, Option.map_some]
      simp
    cases pos with
    | element => exact absurd rfl hok.1
    | assignment =>
      obtain ⟨v0, m, h1, h2⟩ := hty.1 ⟨rfl, .setOf _⟩
      have hb : ∀ b, v0 ≠ .bytes b := by rintro b rfl; simp [GoVal.named] at h2
      obtain ⟨z', vs', rfl, h3⟩ := typed_slice h1 hb
      simp only [GoVal.named, GoVal.slice.injEq] at h2
      obtain ⟨rfl, rfl, rfl⟩ := h2
      refine key h3 ⟨17, by simp [universalType], choose_neutral (hp.2 (by decide)) (by simp) (by simp)⟩
    | component =>
      obtain ⟨z', vs', h1, h2⟩ := typed_slice (typedAt_not hty (.inl (by decide))) (by simp)
      cases h1
      have hk := hp.1 rfl
      have hset : p.set = true := hk.set.2 (.inr ⟨t, by simp [core_iff, removeWrapperTypes]⟩)
      have hst : p.stringType = 0 := by
        have := hk.strings
        simp only [List.mem_cons, List.not_mem_nil, or_false] at this
        rcases this with h5 | h5 | h5 | h5
        · exact h5
        · have := hk.utf8.1 h5; simp [core_iff, removeWrapperTypes] at this
        · have := hk.numeric.1 h5; simp [core_iff, removeWrapperTypes] at this
        · have := hk.ia5.1 h5; simp [core_iff, removeWrapperTypes] at this
      have htt : p.timeType = 0 := by
        have := hk.times
        simp only [List.mem_cons, List.not_mem_nil, or_false] at this
        rcases this with h5 | h5 | h5
        · exact h5
        · obtain ⟨a, t', h6, h7⟩ := hk.utc.1 h5
          simp [core_iff, removeWrapperTypes] at h6
        · obtain ⟨a, t', h6, h7⟩ := hk.generalized.1 h5
          simp [core_iff, removeWrapperTypes] at h6
      refine key h2 ⟨16, by simp [universalType], ?_⟩
      rw [chooseTag, if_neg (fun h => h.1 htt), if_neg (fun h => h.1 hst), if_pos hset, if_neg (by simp [valueTag])]

/-! ### Components -/

theorem members_append (a b : List MComponent) : members (a ++ b) = members a ++ members b := by
  simp [members, List.filterMap_append]

theorem encOkMembers_mem : ∀ {a : List MComponent}, EncOkMembers strict op l d r s a → ∀ y ∈ members a, EncOkTagged strict op l d r s y.type ∧ DefaultOk strict l r y ∧
    (op.iface = true → y.optional = true → ¬ InInterface l y.type)
  | [], _, y, hy => by simp [members] at hy
  | .named (.mk n t) o df :: a, h, y, hy => by
    rw [EncOkMembers] at h
    simp only [members, List.filterMap_cons, List.mem_cons] at hy
    rcases hy with rfl | hy
    · exact ⟨h.1, h.2.1, h.2.2.1⟩
    · exact encOkMembers_mem h.2.2.2 y hy
  | .componentsOf _ :: a, h, y, hy => by
    rw [EncOkMembers] at h
    · exact encOkMembers_mem h y (by simpa only [members, List.filterMap_cons] using hy)
    · simp
  | .nil :: a, h, y, hy => by
    rw [EncOkMembers] at h
    · exact encOkMembers_mem h y (by simpa only [members, List.filterMap_cons] using hy)
    · simp

theorem typed_struct {fs : List GoField} {vs : List GoFieldVal} (h : Typed f (.struct fs) (.struct vs)) : TypedFields f fs vs := by
  cases h with
  | struct _ _ h => exact h

theorem core_sequence (a b : List MComponent) (fs : List GoFieldVal) (vs : List (Option AsnVal)) (ih : MembersStmt u l d r f strict op s (members (a ++ b)) fs vs) :
    CoreStmt u l d r f strict op s (.sequence a b) (.struct fs) (.record vs) := by
  intro pos e p hok hmn hg hty hp hi
  rw [EncOk] at hok
  have hn := params_neutral hp (by simp [core_iff, removeWrapperTypes]) (by simp [core_iff, removeWrapperTypes]) (by simp [core_iff, removeWrapperTypes])
    (by simp [core_iff, removeWrapperTypes])
  have hnm : ¬ MarksSet l (.sequence a b) := by
    intro hm
    cases hm
  have hty' := typedAt_not hty (.inr hnm)
  cases hg with
  | sequence _ _ fds hf =>
    obtain ⟨bss, h1, h2⟩ := ih fds (by
      intro y hy
      have hmem := hy
      rw [members_append, List.mem_append] at hy
      have h1 := hy.elim (encOkMembers_mem hok.1 y) (encOkMembers_mem hok.2 y)
      refine ⟨h1.1, h1.2.1, fun a' b' h => hmn a' b' (h.imp (.sequence _ _ y _ hmem) (.sequence _ _ y _ hmem)), ?_, h1.2.2⟩
      exact (hmn a b (.inl (.here _))).2 y hmem) hf (typed_struct hty')
    refine .inl ⟨16, true, bss.flatten, ?_, fun hl => ?_⟩
    · rw [makeField, h1]
      exact makeValue_eq (tag := 16) rfl (choose_neutral hn (by simp) (by simp)) rfl
    · obtain ⟨es, h3, h4⟩ := h2 hl
      rw [← h4]
      exact .sequence _ _ _ _ h3

theorem members_tags {xs : List Member} {vs : List (Option AsnVal)} {es : List (AsnTag × Bytes)} (h : EncMembers strict l d xs vs es) :
    ∀ x ∈ es, ∃ y ∈ xs, ∃ v k c, Enc strict l d y.type v x.1 k c := by
  induction xs generalizing vs es with
  | nil => cases h; simp
  | cons y xs ih =>
    cases h with
    | present _ v tag k c e _ _ _ h1 h2 h3 h4 =>
      intro x hx
      rcases List.mem_cons.1 hx with rfl | hx
      · exact ⟨y, by simp, v, k, c, h1⟩
      · obtain ⟨y', h5, h6⟩ := ih h4 x hx
        exact ⟨y', by simp [h5], h6⟩
    | absent _ _ _ _ _ h4 =>
      intro x hx
      obtain ⟨y', h5, h6⟩ := ih h4 x hx
      exact ⟨y', by simp [h5], h6⟩
    | default _ _ _ _ _ _ _ _ h4 =>
      intro x hx
      obtain ⟨y', h5, h6⟩ := ih h4 x hx
      exact ⟨y', by simp [h5], h6⟩

theorem members_order {xs : List Member} {vs : List (Option AsnVal)} {es : List (AsnTag × Bytes)} (h : EncMembers strict l d xs vs es)
    (ho : TagOrder strict l d xs) : es.Pairwise fun x y => x.1.lt y.1 := by
  induction xs generalizing vs es with
  | nil => cases h; simp
  | cons y xs ih =>
    rw [TagOrder, List.pairwise_cons] at ho
    cases h with
    | present _ v tag k c e _ _ _ h1 h2 h3 h4 =>
      refine List.pairwise_cons.2 ⟨fun x hx => ?_, ih h4 ho.2⟩
      obtain ⟨y', h5, v', k', c', h6⟩ := members_tags h4 x hx
      exact ho.1 y' h5 _ _ _ _ _ _ _ _ h1 h6
    | absent _ _ _ _ _ h4 => exact ih h4 ho.2
    | default _ _ _ _ _ _ _ _ h4 => exact ih h4 ho.2

theorem core_set (a b : List MComponent) (fs : List GoFieldVal) (vs : List (Option AsnVal)) (ih : MembersStmt u l d r f strict op s (members (a ++ b)) fs vs) :
    CoreStmt u l d r f strict op s (.set a b) (.struct fs) (.record vs) := by
  intro pos e p hok hmn hg hty hp hi
  rw [EncOk] at hok
  obtain ⟨rfl, hok1, hok2, hord⟩ := hok
  have hk := hp.1 rfl
  have hset : p.set = true := hk.set.2 (.inl ⟨a, b, by simp [core_iff, removeWrapperTypes]⟩)
  have hst : p.stringType = 0 := by
    have := hk.strings
    simp only [List.mem_cons, List.not_mem_nil, or_false] at this
    rcases this with h5 | h5 | h5 | h5
    · exact h5
    · have := hk.utf8.1 h5; simp [core_iff, removeWrapperTypes] at this
    · have := hk.numeric.1 h5; simp [core_iff, removeWrapperTypes] at this
    · have := hk.ia5.1 h5; simp [core_iff, removeWrapperTypes] at this
  have htt : p.timeType = 0 := by
    have := hk.times
    simp only [List.mem_cons, List.not_mem_nil, or_false] at this
    rcases this with h5 | h5 | h5
    · exact h5
    · obtain ⟨a, t', h6, h7⟩ := hk.utc.1 h5
      simp [core_iff, removeWrapperTypes] at h6
    · obtain ⟨a, t', h6, h7⟩ := hk.generalized.1 h5
      simp [core_iff, removeWrapperTypes] at h6
  have hty' := typedAt_not hty (.inl (by decide))
  cases hg with
  | set _ _ fds hf =>
    obtain ⟨bss, h1, h2⟩ := ih fds (by
      intro y hy
      have hmem := hy
      rw [members_append, List.mem_append] at hy
      have h1 := hy.elim (encOkMembers_mem hok1 y) (encOkMembers_mem hok2 y)
      refine ⟨h1.1, h1.2.1, fun a' b' h => hmn a' b' (h.imp (.set _ _ y _ hmem) (.set _ _ y _ hmem)), ?_, h1.2.2⟩
      exact (hmn a b (.inr (.here _))).2 y hmem) hf (typed_struct hty')
    refine .inl ⟨17, true, bss.flatten, ?_, fun hl => ?_⟩
    · rw [makeField, h1]
      refine makeValue_eq (tag := 16) rfl ?_ rfl
      rw [chooseTag, if_neg (fun h => h.1 htt), if_neg (fun h => h.1 hst), if_pos hset, if_neg (by simp [valueTag])]
    · obtain ⟨es, h3, h4⟩ := h2 hl
      rw [← h4]
      exact .set _ _ _ _ _ h3 (.refl _) fun hs => members_order h3 (hord hs)

/-! ### Tags -/

theorem field_of_core {t : MTy} {v : GoVal} {x : AsnVal} (h1 : ∀ g t' k b, t ≠ .tagged g t' k b) (h2 : ∀ t' c, t ≠ .constrained t' c)
    (h : CoreStmt u l d r f strict op s t v x) : FieldStmt u l d r f strict op s t v x := by
  intro e p o df hok hmn hg hty hp hi
  have hc : Core t t := .done _ h1 h2
  refine good_alone ?_ (h .component e p (tagged_core hc hok) hmn hg (typedAt_of hty (.inl (by decide)))
    ⟨fun _ => kind_of hp, fun h => absurd rfl h⟩ hi)
  cases hpt : p.tag with
  | none => rfl
  | some n =>
    obtain ⟨c, k, h5⟩ := (hp.tag n).1 hpt
    rw [no_tags (tagged_core hc hok)] at h5
    cases h5

theorem field_constrained (t : MTy) (c : Constraint DefinedValue (Value DefinedValue)) (v : GoVal) (x : AsnVal) (h : FieldStmt u l d r f strict op s t v x) :
    FieldStmt u l d r f strict op s (.constrained t c) v x := by
  intro e p o df hok hmn hg hty hp hi
  cases hg with
  | constrained _ _ _ hg =>
    have hcore : ∀ c', Core (.constrained t c) c' ↔ Core t c' := fun c' => by rw [core_iff, core_iff, removeWrapperTypes]
    obtain ⟨bs, h1, h2⟩ := h e p o df (by simpa [EncOkTagged] using hok) (fun a b h => hmn a b (h.imp (.constrained _ _ _) (.constrained _ _ _))) hg hty
      ⟨hp.optional, hp.dflt, hp.tag, hp.explicit, hp.application, hp.isPrivate, by simpa only [hcore] using hp.set, by simpa only [hcore] using hp.ia5,
        by simpa only [hcore] using hp.numeric, by simpa only [hcore] using hp.utf8, hp.strings, by simpa only [hcore] using hp.generalized,
        by simpa only [hcore] using hp.utc, hp.times, hp.omitEmpty⟩ (fun h => hi (.constrained _ _ h))
    refine ⟨bs, h1, fun hl => ?_⟩
    obtain ⟨tag, k, c', h3, h4⟩ := h2 hl
    exact ⟨tag, k, c', .constrained _ _ _ _ _ _ h3, h4⟩

theorem class_eq {cls : Int} (h : cls ∈ [CLASS_CONTEXT_SPECIFIC, CLASS_APPLICATION, CLASS_PRIVATE]) (a b : Bool) (ha : a = true ↔ cls = CLASS_APPLICATION)
    (hb : b = true ↔ cls = CLASS_PRIVATE) : (if a then 1 else if b then 3 else 2) = classOf cls ∧ classOf cls < 4 := by
  simp only [List.mem_cons, List.not_mem_nil, or_false] at h
  rcases h with rfl | rfl | rfl
  · have ha : a = false := by cases a with | false => rfl | true => exact absurd (ha.1 rfl) (by decide)
    have hb : b = false := by cases b with | false => rfl | true => exact absurd (hb.1 rfl) (by decide)
    subst ha hb
    decide
  · have ha : a = true := ha.2 rfl
    subst ha
    cases b <;> decide
  · have ha : a = false := by cases a with | false => rfl | true => exact absurd (ha.1 rfl) (by decide)
    have hb : b = true := hb.2 rfl
    subst ha hb
    decide

theorem field_tagged (g : Tag DefinedValue) (t : MTy) (kind : Int) (b : Bool) (v : GoVal) (x : AsnVal) (h : CoreStmt u l d r f strict op s t v x) :
    FieldStmt u l d r f strict op s (.tagged g t kind b) v x := by
  intro e p o df hok hmn hg hty hp hi
  rw [EncOkTagged] at hok
  obtain ⟨hcls, ⟨n, hn, -⟩, hkind, hraw, hok⟩ := hok
  obtain ⟨cls, num⟩ := g
  simp only at hcls hn
  subst hn
  have htags : tagsAround d (.tagged ⟨cls, .number n⟩ t kind b) = [(cls, .number n, if b then kind else d)] := by rw [tagsAround, no_tags hok]
  cases hg with
  | tagged _ _ _ _ _ hg =>
    obtain ⟨tag, k, body, h3, h4⟩ := (h .component e p hok (fun a b h => hmn a b (h.imp (.tagged _ _ _ _ _) (.tagged _ _ _ _ _))) hg
      (typedAt_of hty (.inl (by decide)))
      ⟨fun _ => kind_core (kind_of hp) fun c => by rw [core_iff, core_iff, removeWrapperTypes], fun h => absurd rfl h⟩
      (fun h => hi (.tagged _ _ _ _ h))).resolve_right fun h => hraw h.1
    have htag : p.tag = some (n : Int) := (hp.tag n).2 ⟨cls, _, by rw [htags]; rfl⟩
    have hex : p.explicit = true ↔ (if b then kind else d) = TAGS_EXPLICIT := by
      rw [hp.explicit, htags]; simp
    obtain ⟨hc1, hc2⟩ := class_eq hcls p.application p.isPrivate (by rw [hp.application, htags]; simp) (by rw [hp.isPrivate, htags]; simp)
    refine ⟨_, h3, fun hl => ?_⟩
    have hb : body.length ≤ maxLength := by have := addTags_length (p := p) (tag := tag) (k := k) (body := body); omega
    rw [addTags, htag] at hl ⊢
    simp only [hc1] at hl ⊢
    rcases hkind with hk | ⟨hk, hni⟩
    · rw [if_pos (hex.2 hk)] at hl ⊢
      have hi := header_spec 0 tag k body (by decide) hb
      exact ⟨_, _, _, .explicit _ _ _ _ _ _ _ _ _ _ (.inl hk) (h4 hb) hi, header_spec _ _ _ _ hc2 (by simp only [List.length_append] at hl ⊢; omega)⟩
    · have hne : p.explicit ≠ true := fun he => by rw [hex, hk] at he; exact absurd he (by decide)
      rw [if_neg hne] at hl ⊢
      exact ⟨_, _, _, .implicit _ _ _ _ _ _ _ _ _ hk hni (h4 hb), header_spec _ _ _ _ hc2 hb⟩

end Asn1go.Enco
