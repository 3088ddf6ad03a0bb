import Verif.Proofs.Encoding.Lost2

/-! Encodings of SEQUENCE types, component by component. -/

namespace Asn1go.Enco

open Asn1go Spec CG

variable {u : Casing} {l : List MAssignment} {d : Int} {r : Str} {f : GoFile} {strict : Bool}

theorem iface_means {B : Held} {t : MTy} {v : GoVal} {x : AsnVal} (h : Means l B t v x) : InIface v → InInterface l t := by
  refine Means.rec (motive_1 := fun t v x _ => InIface v → InInterface l t) (motive_2 := fun _ _ _ _ => True) (motive_3 := fun _ _ _ _ => True)
    ?_ ?_ ?_ ?_ ?_ ?_ ?_ ?_ ?_ ?_ ?_ ?_ ?_ ?_ ?_ ?_ ?_ ?_ ?_ ?_ ?_ ?_ ?_ ?_ h
  · rintro _ (h | ⟨_, h⟩) <;> cases h
  · rintro _ _ (h | ⟨_, h⟩) <;> cases h
  · rintro _ _ (h | ⟨_, h⟩) <;> cases h
  · rintro _ _ _ (h | ⟨_, h⟩) <;> cases h
  · rintro _ (h | ⟨_, h⟩) <;> cases h
  · rintro _ _ _ _ _ _ _ (h | ⟨_, h⟩) <;> cases h
  · rintro _ _ _ _ _ _ (h | ⟨_, h⟩) <;> cases h
  · rintro _ _ _ _ _ _ _ (h | ⟨_, h⟩) <;> cases h
  · rintro _ _ _ (h | ⟨_, h⟩) <;> cases h
  · intro a t v x h1 _ ih h; exact .ref _ _ h1 (ih h)
  · intro t c v x _ ih h; exact .constrained _ _ (ih h)
  · intro g t k b v x _ ih h; exact .tagged _ _ _ _ (ih h)
  · intro n t e v x h1 _ ih h; exact .only _ _ _ h1 (ih h)
  · intro alts e n t v w x h1 h2 _ _ _ _ _ _; exact .several _ _ h1 h2
  · rintro _ _ _ _ _ _ _ _ _ _ _ (h | ⟨_, h⟩) <;> cases h
  · rintro _ _ _ _ _ _ (h | ⟨_, h⟩) <;> cases h
  · rintro _ _ _ _ _ _ (h | ⟨_, h⟩) <;> cases h
  · rintro _ _ _ _ _ _ _ (h | ⟨_, h⟩) <;> cases h
  · rintro _ _ _ _ _ _ _ (h | ⟨_, h⟩) <;> cases h
  all_goals (intros; trivial)

theorem not_boxed {v : GoVal} (h : ¬ InIface v) : v.unboxed = v := by
  cases v with
  | iface w => exact absurd (.inr ⟨w, rfl⟩) h
  | _ => rfl

/-- What is written for fields. -/
theorem makeFields_split {n : Str} {tag : Option Str} {v : GoVal} {fs : List GoFieldVal} {bss : List Bytes} (h : makeFields u (.mk n tag v :: fs) = some bss) :
    ∃ b bss', makeField u v (fieldParams tag) = some b ∧ makeFields u fs = some bss' ∧ bss = b :: bss' := by
  rw [makeFields] at h
  split at h
  · cases hv : makeField u v (fieldParams tag) with
    | none => rw [hv] at h; cases h
    | some b =>
      cases hvs : makeFields u fs with
      | none => rw [hv, hvs] at h; cases h
      | some bss' => rw [hv, hvs] at h; cases h; exact ⟨b, bss', rfl, rfl, rfl⟩
  · cases h

theorem present_left {m : Member} {tag : Option Str} {v : GoVal} {a : AsnVal} (hpm : PlainMember l d m) (htag : FieldTag l d m tag)
    (hz : m.optional = true → v.isZero = false) (hm : Means l (held strict u l d r f) m.type v a) :
    leftOut (fieldParams tag) v.unboxed = false ∧ ∀ n, (fieldParams tag).tag = some n → 0 ≤ n := by
  have hp := htag.meaning (fun cls n k h => (hpm.tags cls n k h).2) (by rw [hpm.noDefault]; simp)
  refine ⟨?_, fun n hn => ?_⟩
  · cases ho : m.optional with
    | false =>
      apply leftOut_required hp.omitEmpty
      cases hpo : (fieldParams tag).optional with
      | false => rfl
      | true =>
        rcases hp.optional.1 hpo with h | h
        · rw [ho] at h; cases h
        · exact absurd hpm.noDefault h
    | true =>
      have hpd : (fieldParams tag).dflt = none := by
        cases hpd : (fieldParams tag).dflt with
        | none => rfl
        | some n => have := (hp.dflt n).1 hpd; rw [hpm.noDefault] at this; cases this
      rw [not_boxed fun hi => hpm.required ho (iface_means hm hi), leftOut_zero hp.omitEmpty (hp.optional.2 (.inl ho)) hpd]
      exact hz ho
  · obtain ⟨cls, k, h⟩ := (hp.tag n).1 hn
    exact (hpm.tags _ _ _ (List.mem_of_getLast? h)).1

theorem absent_left {m : Member} {tag : Option Str} {v : GoVal} {b : Bytes} (hpm : PlainMember l d m) (htag : FieldTag l d m tag)
    (ho : m.optional = true) (hz : v.isZero = true) (h : makeField u v (fieldParams tag) = some b) : b = [] := by
  have hp := htag.meaning (fun cls n k h => (hpm.tags cls n k h).2) (by rw [hpm.noDefault]; simp)
  have hpd : (fieldParams tag).dflt = none := by
    cases hpd : (fieldParams tag).dflt with
    | none => rfl
    | some n => have := (hp.dflt n).1 hpd; rw [hpm.noDefault] at this; cases this
  have hi : ¬ InIface v := by
    rintro (rfl | ⟨w, rfl⟩)
    · rw [makeField] at h; cases h
    · simp [GoVal.isZero] at hz
  rw [zero_left hi (by rw [leftOut_zero hp.omitEmpty (hp.optional.2 (.inl ho)) hpd, hz])] at h
  cases h
  rfl

/-- The components are encoded rightly if what is written is their encodings, and the other way round. -/
theorem fields_iff {ms : List Member} {fs : List GoFieldVal} {vs : List (Option AsnVal)} (hm : MeansMembers l (held strict u l d r f) ms fs vs) :
    ∀ {fds : List GoField} {bss : List Bytes}, (∀ m ∈ ms, PlainMember l d m) → FieldsOf u l d r ms fds → TypedFields f fds fs → makeFields u fs = some bss →
      bss.flatten.length ≤ maxLength →
      ((∃ es, EncMembers strict l d ms vs es ∧ es.flatMap Prod.snd = bss.flatten) ↔ EachRight strict u l d ms fs vs) := by
  induction ms generalizing fs vs with
  | nil =>
    intro fds bss _ _ _ h _
    cases hm
    rw [makeFields] at h
    cases h
    exact ⟨fun _ => .nil, fun _ => ⟨[], .nil, rfl⟩⟩
  | cons m ms ih =>
    intro fds bss hpm hf hty h hl
    cases hf with
    | cons _ _ e tag' fds hg htag hf =>
      cases hm with
      | present _ _ n tag v fs a vs hz hm1 hm2 =>
        cases hty with
        | cons _ _ _ _ _ _ hty1 hty2 =>
          obtain ⟨b, bss', h1, h2, rfl⟩ := makeFields_split h
          rw [List.flatten_cons, List.length_append] at hl
          obtain ⟨h3, h4⟩ := present_left (hpm m (by simp)) htag hz hm1
          obtain ⟨tg, k, c, h5⟩ := field_encoding h1 (means_sound hm1) h3 h4 (by omega)
          have ih' := ih hm2 (fun m hm => hpm m (by simp [hm])) hf hty2 h2 (by omega)
          constructor
          · rintro ⟨es, h6, h7⟩
            cases h6 with
            | present _ _ tag1 k1 c1 e1 _ _ es h8 h9 h10 h11 =>
              rw [List.flatMap_cons, List.flatten_cons] at h7
              obtain ⟨h12, h13⟩ := Deco.encoding_prefix h9 h5 h7
              exact .present _ _ _ _ _ _ _ _ ⟨b, h1, tag1, k1, c1, h8, by rw [← h12]; exact h9⟩ (ih'.1 ⟨es, h11, h13⟩)
            | default _ _ dv _ _ _ h8 _ _ =>
              rw [(hpm m (by simp)).noDefault] at h8
              cases h8
          · intro h6
            cases h6 with
            | present _ _ _ _ _ _ _ _ h7 h8 =>
              obtain ⟨e1, h9, tag1, k1, c1, h10, h11⟩ := h7
              rw [h1] at h9
              cases h9
              obtain ⟨es, h12, h13⟩ := ih'.2 h8
              refine ⟨(tag1, b) :: es, .present _ _ _ _ _ _ _ _ _ h10 h11 (fun _ dv hdv => ?_) h12, by rw [List.flatMap_cons, h13, List.flatten_cons]⟩
              rw [(hpm m (by simp)).noDefault] at hdv
              cases hdv
      | absent _ _ n tag v fs vs ho hz hm2 =>
        cases hty with
        | cons _ _ _ _ _ _ hty1 hty2 =>
          obtain ⟨b, bss', h1, h2, rfl⟩ := makeFields_split h
          have := absent_left (hpm m (by simp)) htag ho hz h1
          subst this
          rw [List.flatten_cons, List.nil_append] at hl ⊢
          have ih' := ih hm2 (fun m hm => hpm m (by simp [hm])) hf hty2 h2 hl
          constructor
          · rintro ⟨es, h6, h7⟩
            cases h6 with
            | absent _ _ _ _ _ h8 => exact .absent _ _ _ _ _ _ _ (ih'.1 ⟨es, h8, h7⟩)
          · intro h6
            cases h6 with
            | absent _ _ _ _ _ _ _ h7 =>
              obtain ⟨es, h8, h9⟩ := ih'.2 h7
              exact ⟨es, .absent _ _ _ _ ho h8, h9⟩

theorem written_struct {fs : List GoFieldVal} {bs : Bytes} (h : marshal u (.struct fs) = some bs) :
    ∃ bss, makeFields u fs = some bss ∧ bs = header 0 (16 : Nat) true bss.flatten.length ++ bss.flatten := by
  obtain ⟨m, k, body, h1, h2, h3⟩ := written h (by intro _ _ _ _ _ h; cases h)
  have hub : (GoVal.struct fs).unboxed = .struct fs := rfl
  rw [hub] at h1 h2 h3
  cases h1
  rw [makeBody, childrenOf] at h2
  cases hm : makeFields u fs with
  | none => rw [hm] at h2; cases h2
  | some bss =>
    rw [hm] at h2
    cases h2
    exact ⟨bss, rfl, h3⟩

theorem sequence_iff {a b : List MComponent} {fs : List GoFieldVal} {vs : List (Option AsnVal)} {bs : Bytes}
    (hty : HasGoType u l d r f (.sequence a b) (.struct fs)) (hm : Means l (held strict u l d r f) (.sequence a b) (.struct fs) (.record vs))
    (hpm : ∀ m ∈ members (a ++ b), PlainMember l d m) (h : marshal u (.struct fs) = some bs) (hl : bs.length ≤ maxLength) :
    Encodes strict l d (.sequence a b) (.record vs) bs ↔ EachRight strict u l d (members (a ++ b)) fs vs := by
  obtain ⟨e, hg, hty⟩ := hty
  obtain ⟨bss, h1, h2⟩ := written_struct h
  have hbl : bss.flatten.length ≤ maxLength := by rw [h2, List.length_append] at hl; omega
  have hen := header_spec 0 16 true _ (by omega) hbl
  rw [← h2] at hen
  cases hg with
  | sequence _ _ fds hf =>
    cases hm with
    | sequence _ _ _ _ hm =>
      rw [← fields_iff hm hpm hf (typed_struct hty) h1 hbl]
      constructor
      · rintro ⟨tag, k, c, h3, h4⟩
        cases h3 with
        | sequence _ _ _ es h5 => exact ⟨es, h5, (encoding_contents hen h4).symm⟩
      · rintro ⟨es, h5, h6⟩
        exact ⟨_, _, _, .sequence _ _ _ _ h5, by rw [h6]; exact hen⟩

end Asn1go.Enco
