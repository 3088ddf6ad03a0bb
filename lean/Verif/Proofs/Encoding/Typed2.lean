import Verif.Proofs.Encoding.Typed

/-! Further facts on types that are encoded as they should: times, integers, interfaces. -/

namespace Asn1go.Enco

open Asn1go Spec CG

variable {u : Casing} {l : List MAssignment} {d : Int} {r : Str} {f : GoFile} {strict : Bool} {op : Open} {s : Str → Prop} {B : Held}

/-! ### Component types -/

theorem core_unconstrained {t c : MTy} (h : unconstrained t = c) (h1 : ∀ g t' k b, c ≠ .tagged g t' k b) : Core t c := by
  induction t using unconstrained.induct with
  | case1 t x ih => rw [unconstrained] at h; exact .constrained _ _ _ (ih h)
  | case2 t hn =>
    rw [unconstrained] at h
    · subst h; exact .done _ h1 (fun _ _ he => hn _ _ he)
    · exact hn

theorem tagged_core {t c : MTy} (hc : Core t c) (h : EncOkTagged strict op l d r s t) : EncOk strict op l d r s .component c := by
  induction hc with
  | tagged g t c k b hc _ =>
    rw [EncOkTagged] at h
    exact encOk_core hc h.2.2.2.2
  | constrained t c x _ ih => exact ih (by simpa [EncOkTagged] using h)
  | done t h1 h2 =>
    rw [EncOkTagged] at h
    · exact h
    · intro g t k b he; exact h1 _ _ _ _ he
    · intro t x he; exact h2 _ _ he

theorem no_tags {pos : Position} : ∀ {t : MTy}, EncOk strict op l d r s pos t → tagsAround d t = []
  | .tagged .., h => by simp [EncOk] at h
  | .constrained t _, h => by rw [tagsAround]; exact no_tags (by simpa [EncOk] using h)
  | .boolean, _ => rfl
  | .integer _, _ => rfl
  | .real, _ => rfl
  | .null, _ => rfl
  | .nil, _ => rfl
  | .named _, _ => rfl
  | .any _, _ => rfl
  | .ref _, _ => rfl
  | .choice .., _ => rfl
  | .sequence .., _ => rfl
  | .set .., _ => rfl
  | .sequenceOf _, _ => rfl
  | .setOf _, _ => rfl
  | .enumerated .., _ => rfl
  | .characterString, _ => rfl
  | .restrictedString _, _ => rfl
  | .octetString, _ => rfl
  | .bitString _, _ => rfl
  | .objectIdentifier, _ => rfl

/-! ### Times -/

theorem timeRef_leaf {a : Str} (h : TimeRef l a) : Leaf l a (c! "GeneralizedTime") .nil := by
  induction h with
  | here h => exact .unassigned _ h
  | ref a b t h1 h2 _ ih => exact .alias _ _ _ _ ⟨t, h1, core_unconstrained h2 (by simp)⟩ ih

theorem timeRef_resolves {a b : Str} {t : MTy} (h : TimeRef l a) (hr : Resolves l a b t) : TimeName b := by
  have := (resolves_unique hr (.generalizedTime _ (timeRef_leaf h))).1
  exact .inl this

theorem means_unconstrained {t : MTy} {v : GoVal} {x : AsnVal} (h : Means l B t v x) : Means l B (unconstrained t) v x := by
  induction t using unconstrained.induct with
  | case1 t c ih => rw [unconstrained]; cases h with | constrained _ _ _ _ h => exact ih h
  | case2 t hn =>
    rw [unconstrained]
    · exact h
    · exact hn

theorem enc_unconstrained {t : MTy} {x : AsnVal} {tag : AsnTag} {k : Bool} {c : Bytes} (h : Enc strict l d (unconstrained t) x tag k c) :
    Enc strict l d t x tag k c := by
  induction t using unconstrained.induct with
  | case1 t y ih => rw [unconstrained] at h; exact .constrained _ _ _ _ _ _ (ih h)
  | case2 t hn =>
    rw [unconstrained] at h
    · exact h
    · exact hn

theorem time_ref {a : Str} (h : TimeRef l a) {v : GoVal} {x : AsnVal} (hm : Means l B (.ref a) v x) :
    ∃ t : AsnTime, t.Ok ∧ v = .time ⟨t.year, t.month, t.day, t.hour, t.minute, t.second, 0⟩ ∧
      Enc strict l d (.ref a) x ⟨0, 24⟩ false (timeOctets t) := by
  induction h generalizing v x with
  | here h =>
    cases hm with
    | time t h1 h2 => exact ⟨t, h2, rfl, .time t h1 h2⟩
    | ref _ t _ _ h1 _ => exact absurd h1 (h t)
  | ref a b t h1 h2 _ ih =>
    cases hm with
    | time _ h3 _ => exact absurd h1 (h3 t)
    | ref _ t' _ _ h3 h4 =>
      cases assigned_unique h1 h3
      have h5 := means_unconstrained h4
      rw [h2] at h5
      obtain ⟨τ, h6, h7, h8⟩ := ih h5
      exact ⟨τ, h6, h7, .ref _ _ _ _ _ _ h1 (enc_unconstrained (h2 ▸ h8))⟩

/-! ### Integers and booleans -/

theorem means_core {t c : MTy} (hc : Core t c) {v : GoVal} {x : AsnVal} (h : Means l B t v x) : Means l B c v x := by
  induction hc with
  | tagged g t c k b _ ih => cases h with | tagged _ _ _ _ _ _ h => exact ih h
  | constrained t c y _ ih => cases h with | constrained _ _ _ _ h => exact ih h
  | done t _ _ => exact h

theorem means_typeIs {t c : MTy} (ht : TypeIs l t c) {v : GoVal} {x : AsnVal} (h : Means l B t v x) : Means l B c v x := by
  induction ht with
  | core t c hc _ => exact means_core hc h
  | ref t t' c a hc ha _ ih =>
    cases means_core hc h with
    | time _ h3 _ => exact absurd ha (h3 _)
    | ref _ t'' _ _ h3 h4 =>
      cases assigned_unique ha h3
      exact ih h4

theorem timeRef_not {a : Str} (h : TimeRef l a) : ∀ {t c : MTy}, Assigned l a t → ¬ TypeIs l t c := by
  induction h with
  | here h => intro t c ha; exact absurd ha (h t)
  | ref a b t0 h1 h2 _ ih =>
    intro t c ha ht
    cases assigned_unique h1 ha
    have hcore : Core t0 (.ref b) := core_unconstrained h2 (by simp)
    cases ht with
    | core _ _ hc hn =>
      rw [core_iff] at hc hcore
      exact hn b (hc.symm.trans hcore)
    | ref _ t' _ a' hc ha' ht' =>
      rw [core_iff] at hc hcore
      cases hc.symm.trans hcore
      exact ih ha' ht'

theorem not_big (cx : Ctx u l d r f strict op s) {t c : MTy} (ht : TypeIs l t c) {nums : List NamedNumber} (hcn : c = .integer nums) :
    ∀ {e : GoExpr} {n : Option Int}, (∀ c, Core t c → ∃ pos, EncOk strict op l d r s pos c) → GoTypeOf u l d r t e → Typed f e (.big n) → r ≠ c! "int64" := by
  induction ht with
  | core t c hc _ =>
    subst hcn
    intro e n _ hg hty hr
    cases goType_core hc hg with
    | int64 =>
      generalize hv : GoVal.big n = v at hty
      cases hty with
      | «alias» _ _ _ hd _ => exact (not_declared cx hd).1 (by decide)
      | defined _ _ _ hd _ => exact (not_declared cx hd).1 (by decide)
      | _ => cases hv
    | bigInt _ hb => rw [hr] at hb; exact absurd hb (by decide)
  | ref t t' c a hc ha ht ih =>
    intro e n hok hg hty
    obtain ⟨pos, hp⟩ := hok _ hc
    have hsa : s a := by
      rw [EncOk] at hp
      rcases hp with h | ⟨-, h⟩
      · exact h
      · exact absurd ht (timeRef_not h ha)
    obtain ⟨t'', e', h1, h2, h3⟩ := typed_ref cx hsa (goType_core hc hg) hty
    cases assigned_unique ha h1
    obtain ⟨t'', h4, h5⟩ := cx.closed a hsa
    cases assigned_unique ha h4
    have hnm : ¬ MarksSet l t' := by
      cases ht with
      | core _ _ hc _ => subst hcn; exact not_marks hc (by simp) (by simp) (by simp) (by simp)
      | ref _ _ _ _ hc _ _ => exact not_marks hc (by simp) (by simp) (by simp) (by simp)
    exact ih hcn (fun c hc => ⟨_, encOk_core hc h5⟩) h2 (typedAt_not h3 (.inr hnm))

/-! ### Interfaces -/

theorem each_mem {n : Str} {t : MTy} : ∀ {alts : List MNamed}, EncOkEach strict op l d r s alts → .mk n t ∈ alts →
    NoStruct l t ∧ EncOk strict op l d r s .element t
  | .mk n' t' :: _, h, hm => by
    rw [EncOkEach] at h
    rcases List.mem_cons.1 hm with hm | hm
    · cases hm; exact ⟨h.1, h.2.1⟩
    · exact each_mem h.2.2 hm

theorem alts_mem {alts : List MNamed} (h : EncOkOnly strict op l d r s alts) {n : Str} {t : MTy} (hm : .mk n t ∈ alts) :
    EncOk strict op l d r s .element t := by
  match alts, h, hm with
  | [.mk n' t'], h, hm => simp at hm; obtain ⟨rfl, rfl⟩ := hm; simpa [EncOkOnly] using h
  | .mk n' t' :: y :: ys, h, hm =>
    rw [EncOkOnly] at h
    rcases List.mem_cons.1 hm with hm | hm
    · cases hm; exact h.2.2.2.2.1
    · exact (each_mem h.2.2.2.2.2 hm).2

theorem alts_several {alts : List MNamed} (h : EncOkOnly strict op l d r s alts) (hl : alts.length ≠ 1) :
    op.iface = true ∧ DifferentNames alts ∧ (r = c! "int64" ∨ r = c! "big.Int") ∧ ∀ n t, .mk n t ∈ alts → NoStruct l t := by
  match alts, h with
  | [], h => simp [EncOkOnly] at h
  | [.mk n' t'], h => simp at hl
  | .mk n' t' :: y :: ys, h =>
    rw [EncOkOnly] at h
    refine ⟨h.1, h.2.1, h.2.2.1, fun n t hm => ?_⟩
    rcases List.mem_cons.1 hm with hm | hm
    · cases hm; exact h.2.2.2.1
    · exact (each_mem h.2.2.2.2.2 hm).1

theorem alts_untagged (cx : Ctx u l d r f strict op s) {alts : List MNamed} (h : EncOkOnly strict op l d r s alts) : ¬ SomeTagged l alts := by
  rintro ⟨n, t, hm, ht⟩
  exact ok_not_tagged cx ht (pos := .element) (by decide) (alts_mem h hm)

theorem goType_ident (cx : Ctx u l d r f strict op s) {t : MTy} {e : GoExpr} (h : GoTypeOf u l d r t e) :
    ∀ {pos : Position}, EncOk strict op l d r s pos t → (e = .iface → InInterface l t) ∧
      ∀ n, e = .ident n → n ∉ predeclared → '.' ∉ n → ∃ a, s a ∧ n = goifyName u a ∧ (InInterface l (.ref a) → InInterface l t) := by
  refine GoTypeOf.rec (motive_1 := fun t e _ => ∀ {pos : Position}, EncOk strict op l d r s pos t → (e = .iface → InInterface l t) ∧
      ∀ n, e = .ident n → n ∉ predeclared → '.' ∉ n → ∃ a, s a ∧ n = goifyName u a ∧ (InInterface l (.ref a) → InInterface l t))
    (motive_2 := fun _ _ _ => True)
    ?_ ?_ ?_ ?_ ?_ ?_ ?_ ?_ ?_ ?_ ?_ ?_ ?_ ?_ ?_ ?_ ?_ ?_ ?_ ?_ ?_ ?_ ?_ ?_ ?_ h
  · intro pos _; exact ⟨by simp, fun n hn hp _ => by cases hn; exact absurd (by decide) hp⟩
  · intro nums _ pos _; exact ⟨by simp, fun n hn hp _ => by cases hn; exact absurd (by decide) hp⟩
  · intro nums _ pos _; exact ⟨by simp, fun n hn hp _ => by cases hn⟩
  · intro pos h; simp [EncOk] at h
  · intro pos h; simp [EncOk] at h
  · intro k pos _; exact ⟨by simp, fun n hn hp _ => by cases hn; exact absurd (by decide) hp⟩
  · intro pos _; exact ⟨by simp, fun n hn hp _ => by cases hn⟩
  · intro nb pos _; exact ⟨by simp, fun n hn _ hp => by cases hn; exact absurd (by decide) hp⟩
  · intro pos _; exact ⟨by simp, fun n hn _ hp => by cases hn; exact absurd (by decide) hp⟩
  · intro a b pos _; exact ⟨by simp, fun n hn _ hp => by cases hn; exact absurd (by decide) hp⟩
  · intro x pos h; simp [EncOk] at h
  · intro a b fs _ _ pos _; exact ⟨by simp, fun n hn _ hp => by cases hn⟩
  · intro a b fs _ _ pos _; exact ⟨by simp, fun n hn _ hp => by cases hn⟩
  · intro t e _ _ pos _; exact ⟨by simp, fun n hn _ hp => by cases hn⟩
  · intro t e _ _ pos _; exact ⟨by simp, fun n hn _ hp => by cases hn⟩
  · intro g t k b e _ _ pos h; simp [EncOk] at h
  · intro t x e _ ih pos h
    obtain ⟨h1, h2⟩ := ih (pos := pos) (by simpa [EncOk] using h)
    exact ⟨fun he => .constrained _ _ (h1 he), fun n hn hp hd => (h2 n hn hp hd).imp fun a h => ⟨h.1, h.2.1, fun hi => .constrained _ _ (h.2.2 hi)⟩⟩
  · intro a b t _ _ pos _; exact ⟨by simp, fun n hn _ hp => by cases hn; exact absurd (by decide) hp⟩
  · intro a b t nb _ _ _ pos _; exact ⟨by simp, fun n hn _ hp => by cases hn; exact absurd (by decide) hp⟩
  · intro a b t h1 h2 _ pos h
    refine ⟨by simp, fun n hn _ _ => ⟨a, ?_, by cases hn; rfl, id⟩⟩
    rw [EncOk] at h
    rcases h with h | ⟨-, h⟩
    · exact h
    · exact absurd (timeRef_resolves h h1) h2
  · intro alts e h1 pos h
    exact ⟨by simp, fun n hn _ hp => by cases hn; exact absurd (by decide) hp⟩
  · intro n t ext e hna _ ih pos h
    obtain ⟨h1, h2⟩ := ih (pos := .element) (only_ok h hna)
    exact ⟨fun he => .only _ _ _ hna (h1 he), fun n hn hp hd => (h2 n hn hp hd).imp fun a h => ⟨h.1, h.2.1, fun hi => .only _ _ _ hna (h.2.2 hi)⟩⟩
  · intro alts e hna hn pos h
    exact ⟨fun _ => .several _ _ hna hn, fun n hn => by cases hn⟩
  · trivial
  · intros; trivial

/-- The value is (in) an interface. -/
def InIface (v : GoVal) : Prop := v = .nilIface ∨ ∃ w, v = .iface w

theorem named_iface {v : GoVal} {n : Str} (h : InIface (v.named n)) : InIface v := by
  cases v <;> simp_all [InIface, GoVal.named]

theorem not_iface_aux (cx : Ctx u l d r f strict op s) {e : GoExpr} {v : GoVal} (h : Typed f e v) :
    InIface v → (∀ pos t, EncOk strict op l d r s pos t → GoTypeOf u l d r t e → InInterface l t) ∧
      (∀ a t, s a → Assigned l a t → MarksSet l t → e = .ident (goifyName u a ++ c! "SET") → InInterface l t) := by
  refine Typed.rec (motive_1 := fun e v _ => InIface v → (∀ pos t, EncOk strict op l d r s pos t → GoTypeOf u l d r t e → InInterface l t) ∧
      (∀ a t, s a → Assigned l a t → MarksSet l t → e = .ident (goifyName u a ++ c! "SET") → InInterface l t)) (motive_2 := fun _ _ _ => True)
      (motive_3 := fun _ _ _ => True) ?_ ?_ ?_ ?_ ?_ ?_ ?_ ?_ ?_ ?_ ?_ ?_ ?_ ?_ ?_ ?_ ?_ ?_ ?_ ?_ ?_ h
  case refine_12 => exact fun _ => ⟨fun pos t hok hg => (goType_ident cx hg hok).1 rfl, fun _ _ _ _ _ he => by cases he⟩
  case refine_13 => exact fun _ _ _ _ _ _ _ => ⟨fun pos t hok hg => (goType_ident cx hg hok).1 rfl, fun _ _ _ _ _ he => by cases he⟩
  case refine_16 =>
    intro n e v hd hty ih hv
    have hsp := not_declared cx hd
    refine ⟨fun pos t hok hg => ?_, fun a t ha hat hm he => ?_⟩
    · obtain ⟨a, ha, rfl, hi⟩ := (goType_ident cx hg hok).2 n rfl hsp.1 hsp.2
      obtain ⟨t', h1, h2⟩ := cx.closed a ha
      refine hi (.ref _ _ h1 ?_)
      rcases declares_for cx h1 hd with ⟨-, h3, -⟩ | ⟨-, h3, h4⟩
      · exact (ih hv).1 _ _ h2 h3
      · exact (ih hv).2 _ _ ha h1 h3 h4
    · cases he
      exact absurd (declares_set cx hat hm hd).1 (by simp)
  case refine_17 =>
    intro n e v hd hty ih hv
    have hsp := not_declared cx hd
    refine ⟨fun pos t hok hg => ?_, fun a t ha hat hm he => ?_⟩
    · obtain ⟨a, ha, rfl, hi⟩ := (goType_ident cx hg hok).2 n rfl hsp.1 hsp.2
      obtain ⟨t', h1, h2⟩ := cx.closed a ha
      refine hi (.ref _ _ h1 ?_)
      rcases declares_for cx h1 hd with ⟨-, h3, -⟩ | ⟨h3, -, -⟩
      · exact (ih (named_iface hv)).1 _ _ h2 h3
      · cases h3
    · cases he
      obtain ⟨t', h1, h2⟩ := cx.closed a ha
      cases assigned_unique hat h1
      exact (ih (named_iface hv)).1 _ _ h2 (declares_set cx hat hm hd).2
  all_goals intros; first | trivial | simp_all [InIface]

theorem interface_core {t c : MTy} (hc : Core t c) (h : InInterface l c) : InInterface l t := by
  induction hc with
  | tagged g t c k b _ ih => exact .tagged _ _ _ _ (ih h)
  | constrained t c x _ ih => exact .constrained _ _ (ih h)
  | done t _ _ => exact h

theorem not_iface (cx : Ctx u l d r f strict op s) {t : MTy} {e : GoExpr} {v : GoVal} (h : EncOkTagged strict op l d r s t) (hg : GoTypeOf u l d r t e)
    (ht : Typed f e v) (hi : ¬ InInterface l t) : ¬ InIface v := fun hv =>
  have hc := core_total t
  hi (interface_core hc ((not_iface_aux cx ht hv).1 _ _ (tagged_core hc h) (goType_core hc hg)))

/-- No interfaces if they are not allowed. -/
theorem no_interface (cx : Ctx u l d r f strict op s) (hop : op.iface = false) {t : MTy} (h : InInterface l t) : ∀ {pos : Position},
    ¬ EncOk strict op l d r s pos t := by
  induction h with
  | several alts e hna hl => intro pos h; exact absurd (alts_several (choice_ok h hna) hl).1 (by simp [hop])
  | only n t e hna _ ih => intro pos h; exact ih (pos := .element) (only_ok h hna)
  | ref a t ha hi ih =>
    intro pos h
    rw [EncOk] at h
    rcases h with h | ⟨-, h⟩
    · obtain ⟨t', h1, h2⟩ := cx.closed a h
      cases assigned_unique ha h1
      exact ih h2
    · clear ih
      induction h generalizing t with
      | here h => exact h _ ha
      | ref a b t0 h1 h2 _ ih =>
        cases assigned_unique ha h1
        have : InInterface l (.ref b) := by
          clear ih ha h1
          rw [← h2]
          induction t0 using unconstrained.induct with
          | case1 t x ih => rw [unconstrained]; cases hi with | constrained _ _ hi => rw [unconstrained] at h2; exact ih h2 hi
          | case2 t hn =>
            rw [unconstrained]
            · exact hi
            · exact hn
        cases this with
        | ref _ t' h3 h4 => exact ih _ h3 h4
  | constrained t x _ ih => intro pos h; exact ih (pos := pos) (by simpa [EncOk] using h)
  | tagged g t k b _ _ => intro pos h; simp [EncOk] at h

theorem no_interface_field (cx : Ctx u l d r f strict op s) (hop : op.iface = false) {t : MTy} (h : EncOkTagged strict op l d r s t) : ¬ InInterface l t := by
  intro hi
  have aux : ∀ t, EncOkTagged strict op l d r s t → ¬ InInterface l t := by
    intro t
    induction t using unconstrained.induct with
    | case1 t x ih => intro h hi; cases hi with | constrained _ _ hi => exact ih (by simpa [EncOkTagged] using h) hi
    | case2 t hn =>
      intro h hi
      by_cases ht : ∃ g t' k b, t = .tagged g t' k b
      · obtain ⟨g, t', k, b, rfl⟩ := ht
        rw [EncOkTagged] at h
        cases hi with | tagged _ _ _ _ hi => exact no_interface cx hop hi h.2.2.2.2
      · rw [EncOkTagged] at h
        · exact no_interface cx hop hi h
        · intro g t' k' b he; exact ht ⟨_, _, _, _, he⟩
        · exact hn
  exact aux t h hi

theorem choice_only (hop : op.raw = false) {alts : List MNamed} {e : List MTy} {pos : Position} (h : EncOk strict op l d r s pos (.choice alts e)) :
    EncOkOnly strict op l d r s alts := by
  rw [EncOk, hop] at h
  exact h.resolve_left fun h => by simp at h

/-- No raw values if they are not allowed. -/
theorem no_raw (cx : Ctx u l d r f strict op s) (hop : op.raw = false) {t : MTy} (h : InRaw l t) : ∀ {pos : Position}, ¬ EncOk strict op l d r s pos t := by
  induction h with
  | raw alts e hs =>
    intro pos h
    rw [EncOk, hop] at h
    exact alts_untagged cx (h.resolve_left fun h => by simp at h) hs
  | alternative alts e n t hm _ ih =>
    intro pos h
    rw [EncOk, hop] at h
    exact ih (alts_mem (h.resolve_left fun h => by simp at h) hm)
  | ref a t ha hi ih =>
    intro pos h
    rw [EncOk] at h
    rcases h with h | ⟨-, h⟩
    · obtain ⟨t', h1, h2⟩ := cx.closed a h
      cases assigned_unique ha h1
      exact ih h2
    · clear ih
      induction h generalizing t with
      | here h => exact h _ ha
      | ref a b t0 h1 h2 _ ih =>
        cases assigned_unique ha h1
        have : InRaw l (.ref b) := by
          clear ih ha h1
          rw [← h2]
          induction t0 using unconstrained.induct with
          | case1 t x ih => rw [unconstrained]; cases hi with | constrained _ _ hi => rw [unconstrained] at h2; exact ih h2 hi
          | case2 t hn =>
            rw [unconstrained]
            · exact hi
            · exact hn
        cases this with
        | ref _ t' h3 h4 => exact ih _ h3 h4
  | constrained t x _ ih => intro pos h; exact ih (pos := pos) (by simpa [EncOk] using h)

end Asn1go.Enco
