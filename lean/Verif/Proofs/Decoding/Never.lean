import Verif.Proofs.Decoding.Unique

/-! Types of which nothing is read. -/

namespace Asn1go.Deco

open Asn1go Spec CG Enco

variable {u : Casing} {l : List MAssignment} {d : Int} {r : Str} {f : GoFile} {strict : Bool} {op : Open} {s : Str → Prop}

/-! ### Parameters that are not said -/

theorem cut_first : ∀ (w : Str), (cutComma w).1 ∈ splitCommas w
  | [] => by simp [cutComma, splitCommas]
  | c :: w => by
    have ih := cut_first w
    rw [cutComma, splitCommas]
    by_cases h : c = ','
    · rw [if_pos h, if_pos h]; exact List.mem_cons_self
    · rw [if_neg h, if_neg h]
      have hh : ∃ ws, splitCommas w = (cutComma w).1 :: ws := by
        clear ih h
        induction w with
        | nil => exact ⟨[], rfl⟩
        | cons x w ih =>
          rw [cutComma, splitCommas]
          by_cases h : x = ','
          · rw [if_pos h, if_pos h]; exact ⟨_, rfl⟩
          · rw [if_neg h, if_neg h]
            obtain ⟨ws, h1⟩ := ih
            rw [h1]
            exact ⟨ws, rfl⟩
      obtain ⟨ws, h1⟩ := hh
      rw [h1]
      exact List.mem_cons_self

theorem cut_rest : ∀ (w : Str), (cutComma w).2 ≠ [] → ∀ x ∈ splitCommas (cutComma w).2, x ∈ splitCommas w
  | [], h => absurd rfl h
  | c :: w, h => by
    rw [cutComma] at h ⊢
    rw [splitCommas]
    by_cases hc : c = ','
    · rw [if_pos hc, if_pos hc]
      exact fun x hx => List.mem_cons_of_mem _ hx
    · rw [if_neg hc, if_neg hc]
      rw [if_neg hc] at h
      have hh : ∀ (w : Str), (cutComma w).2 ≠ [] → ∃ v, splitCommas w = v :: splitCommas (cutComma w).2 := by
        intro w
        induction w with
        | nil => exact fun h => absurd rfl h
        | cons x w ih =>
          rw [cutComma, splitCommas]
          by_cases h : x = ','
          · rw [if_pos h, if_pos h]; exact fun _ => ⟨_, rfl⟩
          · rw [if_neg h, if_neg h]
            intro h2
            obtain ⟨v, h1⟩ := ih h2
            rw [h1]
            exact ⟨_, rfl⟩
      obtain ⟨v, h1⟩ := hh w h
      rw [h1]
      exact fun x hx => List.mem_cons_of_mem _ hx

theorem ite_optional {c : Prop} [Decidable c] {a b : FieldParams} {x : Bool} (ha : a.optional = x) (hb : b.optional = x) : (if c then a else b).optional = x := by
  by_cases h : c
  · rwa [if_pos h]
  · rwa [if_neg h]

theorem readPart_optional {p : FieldParams} {w : Str} (h : w ≠ c! "optional") : (readPart p w).optional = p.optional := by
  rw [readPart, if_neg h]
  repeat' (first | rfl | (cases parseInt64 _ <;> rfl) | apply ite_optional)

theorem readParts_optional : ∀ (fuel : Nat) (p : FieldParams) (w : Str), c! "optional" ∉ splitCommas w → (readParts fuel p w).optional = p.optional
  | 0, _, _, _ => rfl
  | fuel + 1, p, w, h => by
    rw [readParts]
    by_cases hw : w = []
    · rw [if_pos hw]
    · rw [if_neg hw]
      by_cases hr : (cutComma w).2 = []
      · rw [hr]
        have : ∀ fuel p, readParts fuel p [] = p := by intro fuel p; cases fuel <;> simp [readParts]
        rw [this]
        exact readPart_optional fun he => h (he ▸ cut_first w)
      · rw [readParts_optional fuel _ _ fun hm => h (cut_rest w hr _ hm)]
        exact readPart_optional fun he => h (he ▸ cut_first w)

/-- A tag that does not say `optional`. -/
theorem fieldParams_optional {tag : Option Str} (h : c! "optional" ∉ tagParts tag) : (fieldParams tag).optional = false := by
  cases tag with
  | none => rfl
  | some lit => exact readParts_optional _ _ _ h

/-! ### Fields -/

theorem fieldsOf_type : ∀ {xs : List Member} {fs : List GoField}, FieldsOf u l d r xs fs → ∀ x ∈ xs, ∃ n e tag, GoField.mk n e tag ∈ fs ∧
    GoTypeOf u l d r x.type e ∧ FieldTag l d x tag
  | _, _, .nil, x, hx => by cases hx
  | _, _, .cons y ys e tag fs h1 h2 h3, x, hx => by
    rcases List.mem_cons.1 hx with rfl | hx
    · exact ⟨_, e, tag, List.mem_cons_self, h1, h2⟩
    · obtain ⟨n, e', tag', h4, h5⟩ := fieldsOf_type h3 x hx
      exact ⟨n, e', tag', List.mem_cons_of_mem _ h4, h5⟩

theorem readsFields_mem {fs : List GoField} {b : Bytes} {vs : List GoFieldVal} {rest : Bytes} (h : ReadsFields f u fs b vs rest) :
    ∀ n e tag, GoField.mk n e tag ∈ fs → ∃ b v b', Decodes f u e (fieldParams tag) b v b' := by
  induction fs generalizing b vs with
  | nil => intro n e tag hm; cases hm
  | cons x fs ih =>
    cases h with
    | cons _ _ _ _ _ _ _ _ _ _ h1 h2 =>
      intro n e tag hm
      rcases List.mem_cons.1 hm with he | hm
      · cases he; exact ⟨_, _, _, h1⟩
      · exact ih h2 n e tag hm

/-! ### Kinds of which nothing is read -/

variable (u f) in
def NothingRead (k : GoKind) : Prop :=
  ∀ n e p b v rest, Underlies f e n k → p.optional = false → ¬ Decodes f u e p b v rest

section
variable (hd : (declared f.decls).Nodup) (hdot : ∀ sp, Declares f sp → '.' ∉ sp.name)
include hd hdot

theorem nothing_of {k : GoKind} (h1 : k ≠ .raw) (h2 : k ≠ .iface)
    (h : ∀ n tag comp t c v, kindTag n k = some (tag, comp) → ¬ ReadsBody f u n k t c v) : NothingRead u f k := by
  intro n e p b v rest hu ho hr
  cases hr with
  | missing _ _ _ _ _ _ _ _ h3 _ => rw [ho] at h3; cases h3
  | raw _ _ _ _ _ _ _ h3 _ => exact h1 (under_unique hd hdot hu h3).2
  | iface _ _ _ _ _ _ _ h3 _ _ _ => exact h2 (under_unique hd hdot hu h3).2
  | element _ _ _ _ _ _ _ _ _ _ _ h3 h4 _ h5 =>
    obtain ⟨rfl, rfl⟩ := under_unique hd hdot hu h3
    exact h _ _ _ _ _ _ h4 h5

theorem nothing_float : NothingRead u f .float :=
  nothing_of hd hdot (by simp) (by simp) fun n tag comp t c v h => by simp [kindTag] at h

theorem nothing_slice {e : GoExpr} {m : Str} {k : GoKind} (hu : Underlies f e m k) (hk : k = .iface ∨ k = .float) : NothingRead u f (.slice e) :=
  nothing_of hd hdot (by simp) (by simp) fun n tag comp t c v _ hr => by
    cases hr with
    | simple _ _ _ _ _ h => cases h
    | slice _ _ _ _ _ _ _ h1 h2 _ =>
      obtain ⟨rfl, rfl⟩ := under_unique hd hdot hu h1
      rcases hk with rfl | rfl <;> simp [kindTag] at h2

theorem nothing_struct {fs : List GoField} {n : Str} {e : GoExpr} {tag : Option Str} (hm : GoField.mk n e tag ∈ fs) {m : Str} {k : GoKind}
    (hu : Underlies f e m k) (ho : (fieldParams tag).optional = false) (hk : NothingRead u f k) : NothingRead u f (.struct fs) :=
  nothing_of hd hdot (by simp) (by simp) fun n tag comp t c v _ hr => by
    cases hr with
    | simple _ _ _ _ _ h => cases h
    | struct _ _ _ _ _ _ h =>
      obtain ⟨b, v, b', h1⟩ := readsFields_mem h _ _ _ hm
      exact hk _ _ _ _ _ _ hu ho h1

end

/-- The Go types of elements that are not known. -/
theorem unknown_kind (cx : Ctx u l d r f strict op s) (hpre : ∀ n ∈ predeclared, n ∉ declared f.decls) {t : MTy} (h : UnknownElement l t) : ∀ e, GoTypeOf u l d r t e →
    ∃ n k, Underlies f e n k ∧ (MarksSet l t → k.plain) ∧ (k = .iface ∨ k = .float) := by
  induction h with
  | real =>
    intro e hg
    cases hg
    exact ⟨_, _, .float64 (hpre _ (by decide)), fun hm => trivial, .inr rfl⟩
  | several alts ext hst hl =>
    intro e hg
    cases hg with
    | rawChoice _ _ h => exact absurd h hst
    | onlyChoice _ _ _ _ _ _ => exact absurd rfl hl
    | choice _ _ _ _ => exact ⟨_, _, .iface, fun hm => by cases hm with | choice _ _ _ _ _ => exact absurd rfl hl, .inl rfl⟩
  | only n t ext hna _ ih =>
    intro e hg
    cases hg with
    | rawChoice _ _ h => exact absurd h (some_tagged hna)
    | onlyChoice _ _ _ _ _ hg =>
      obtain ⟨n', k, h1, h2, h3⟩ := ih e hg
      exact ⟨n', k, h1, fun hm => by cases hm with | choice _ _ _ _ hm => exact h2 hm, h3⟩
    | choice _ _ _ h => simp at h
  | ref a t ha _ ih =>
    intro e hg
    obtain ⟨n, k, h1, h2⟩ := under_ref cx ha (pos := .assignment) (.inl rfl) (P := fun _ k => k = .iface ∨ k = .float) (fun _ _ _ h => h)
      (fun e he => by
        obtain ⟨n, k, h1, h2, h3⟩ := ih e he
        exact ⟨n, k, h1, h2, fun _ _ => h3⟩) (.inl hg)
    exact ⟨n, k, h1, nofun, h2 n (.inl rfl)⟩
  | constrained t c _ ih =>
    intro e hg
    cases hg with
    | constrained _ _ _ hg =>
      obtain ⟨n', k, h1, h2, h3⟩ := ih e hg
      exact ⟨n', k, h1, fun hm => by cases hm with | constrained _ _ hm => exact h2 hm, h3⟩
  | tagged g t k h _ ih =>
    intro e hg
    cases hg with
    | tagged _ _ _ _ _ hg =>
      obtain ⟨n', k, h1, h2, h3⟩ := ih e hg
      exact ⟨n', k, h1, fun hm => by cases hm with | tagged _ _ _ _ hm => exact h2 hm, h3⟩

/-- The Go types of which nothing is read. -/
theorem never_kind (cx : Ctx u l d r f strict op s) (hpre : ∀ n ∈ predeclared, n ∉ declared f.decls) (hd : (declared f.decls).Nodup) (hdot : ∀ sp, Declares f sp → '.' ∉ sp.name)
    {t : MTy} (h : NeverRead l t) : ∀ e, GoTypeOf u l d r t e →
    ∃ n k, Underlies f e n k ∧ (MarksSet l t → k.plain) ∧ NothingRead u f k := by
  have hfields : ∀ {ms : List Member} {fs : List GoField} {x : Member}, FieldsOf u l d r ms fs → x ∈ ms → x.optional = false → x.default = none →
      (∀ e, GoTypeOf u l d r x.type e → ∃ n k, Underlies f e n k ∧ (MarksSet l x.type → k.plain) ∧ NothingRead u f k) → NothingRead u f (.struct fs) := by
    intro ms fs x hf hx ho hdf ih
    obtain ⟨n, e, tag, h1, h2, h3⟩ := fieldsOf_type hf x hx
    obtain ⟨m, k, h4, -, h5⟩ := ih e h2
    exact nothing_struct hd hdot h1 h4 (fieldParams_optional (h3.required (by simp [ho, hdf]))) h5
  induction h with
  | real =>
    intro e hg
    cases hg
    exact ⟨_, _, .float64 (hpre _ (by decide)), fun hm => trivial, nothing_float hd hdot⟩
  | sequenceOf t hu =>
    intro e hg
    cases hg with
    | sequenceOf _ e he =>
      obtain ⟨m, k, h1, -, h2⟩ := unknown_kind cx hpre hu e he
      exact ⟨_, _, .slice _ (not_byte cx.named he), fun _ => trivial, nothing_slice hd hdot h1 h2⟩
  | setOf t hu =>
    intro e hg
    cases hg with
    | setOf _ e he =>
      obtain ⟨m, k, h1, -, h2⟩ := unknown_kind cx hpre hu e he
      exact ⟨_, _, .slice _ (not_byte cx.named he), fun _ => trivial, nothing_slice hd hdot h1 h2⟩
  | sequence a b x hx ho hdf _ ih =>
    intro e hg
    cases hg with
    | sequence _ _ fs hf => exact ⟨_, _, .struct _, fun _ => trivial, hfields hf hx ho hdf ih⟩
  | set a b x hx ho hdf _ ih =>
    intro e hg
    cases hg with
    | set _ _ fs hf => exact ⟨_, _, .struct _, fun _ => trivial, hfields hf hx ho hdf ih⟩
  | only n t ext hna _ ih =>
    intro e hg
    cases hg with
    | rawChoice _ _ h => exact absurd h (some_tagged hna)
    | onlyChoice _ _ _ _ _ hg =>
      obtain ⟨n', k, h1, h2, h3⟩ := ih e hg
      exact ⟨n', k, h1, fun hm => by cases hm with | choice _ _ _ _ hm => exact h2 hm, h3⟩
    | choice _ _ _ h => simp at h
  | ref a t ha _ ih =>
    intro e hg
    obtain ⟨n, k, h1, h2⟩ := under_ref cx ha (pos := .assignment) (.inl rfl) (P := fun _ k => NothingRead u f k) (fun _ _ _ h => h)
      (fun e he => by
        obtain ⟨n, k, h1, h2, h3⟩ := ih e he
        exact ⟨n, k, h1, h2, fun _ _ => h3⟩) (.inl hg)
    exact ⟨n, k, h1, nofun, h2 n (.inl rfl)⟩
  | constrained t c _ ih =>
    intro e hg
    cases hg with
    | constrained _ _ _ hg =>
      obtain ⟨n', k, h1, h2, h3⟩ := ih e hg
      exact ⟨n', k, h1, fun hm => by cases hm with | constrained _ _ hm => exact h2 hm, h3⟩
  | tagged g t k h _ ih =>
    intro e hg
    cases hg with
    | tagged _ _ _ _ _ hg =>
      obtain ⟨n', k, h1, h2, h3⟩ := ih e hg
      exact ⟨n', k, h1, fun hm => by cases hm with | tagged _ _ _ _ hm => exact h2 hm, h3⟩

end Asn1go.Deco
