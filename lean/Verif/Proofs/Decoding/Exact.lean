import Verif.Proofs.Decoding.Told
import Verif.Proofs.Decoding.Canon2
import Verif.Spec.Unmarshal

/-! What is true of every value that is read: its numbers are small; and of values that are the same. -/

namespace Asn1go.Deco

open Asn1go Spec CG Enco

variable {u : Casing} {l : List MAssignment} {r : Str} {f : GoFile}

/-! ### Numbers that are read -/

theorem base128_small : ∀ {b : Bytes} {k ret n : Nat} {l' : Bytes}, parseBase128 k ret b = some (n, l') → n ≤ 2147483647
  | [], _, _, _, _, h => by simp [parseBase128] at h
  | b :: c, k, ret, n, l', h => by
    rw [parseBase128] at h
    split at h
    · cases h
    split at h
    · cases h
    split at h
    · split at h
      · cases h
      · simp only [Option.some.injEq, Prod.mk.injEq] at h
        omega
    · exact base128_small h

theorem arcs_small : ∀ {fuel : Nat} {c : Bytes} {o : List Int}, readArcs fuel c = some o → ∀ n ∈ o, 0 ≤ n ∧ n ≤ 2147483647
  | _, [], o, h, n, hn => by
    cases ‹Nat› <;> (simp only [readArcs, Option.some.injEq] at h; subst h; cases hn)
  | 0, _ :: _, o, h, n, hn => by simp [readArcs] at h
  | fuel + 1, b :: c, o, h, n, hn => by
    rw [readArcs] at h
    · cases h1 : parseBase128 0 0 (b :: c) with
      | none => rw [h1] at h; cases h
      | some p =>
        obtain ⟨m, l'⟩ := p
        rw [h1] at h
        simp only at h
        cases h2 : readArcs fuel l' with
        | none => rw [h2] at h; cases h
        | some q =>
          rw [h2] at h
          simp only [Option.some.injEq] at h
          subst h
          rw [List.mem_cons] at hn
          rcases hn with rfl | hn
          · have := base128_small h1
            omega
          · exact arcs_small h2 n hn
    · simp

theorem oid_small {c : Bytes} {o : List Int} (h : readOid c = some o) : NarrowOid o := by
  unfold readOid at h
  cases h1 : readArcs c.length c with
  | none => rw [h1] at h; cases h
  | some q =>
    rw [h1] at h
    cases q with
    | nil => cases h
    | cons n q =>
      simp only [Option.some.injEq] at h
      have h2 := arcs_small h1
      have h3 := h2 n (by simp)
      have h4 : ∀ m ∈ q, m ≤ 2147483647 := fun m hm => (h2 m (by simp [hm])).2
      by_cases hn : n < 80
      · rw [if_pos hn] at h
        subst h
        refine ⟨fun m hm => ?_, fun a b q' hq => ?_⟩
        · simp only [List.mem_cons] at hm
          rcases hm with rfl | rfl | hm
          · omega
          · omega
          · exact h4 m hm
        · simp only [List.cons.injEq] at hq
          omega
      · rw [if_neg hn] at h
        subst h
        refine ⟨fun m hm => ?_, fun a b q' hq => ?_⟩
        · simp only [List.mem_cons] at hm
          rcases hm with rfl | rfl | hm
          · omega
          · omega
          · exact h4 m hm
        · simp only [List.cons.injEq] at hq
          omega

theorem int32_small {c : Bytes} {n : Int} (h : readInt32 c = some n) : -2147483648 ≤ n ∧ n ≤ 2147483647 := by
  unfold readInt32 at h
  cases h1 : readInt64 c with
  | none => rw [h1] at h; cases h
  | some m =>
    rw [h1] at h
    simp only at h
    by_cases hm : -2147483648 ≤ m ∧ m ≤ 2147483647
    · rw [if_pos hm] at h
      cases h
      exact hm
    · rw [if_neg hm] at h
      cases h

theorem simple_narrow {k : GoKind} {t : Nat} {c : Bytes} {v : GoVal} (h : ReadsSimple k t c v) : Narrow v := by
  cases h with
  | enum _ _ n h => rw [Narrow]; exact int32_small h
  | oid _ _ o h => rw [Narrow]; exact oid_small h
  | _ => simp [Narrow]

theorem any_narrow {x : Header} {c : Bytes} {v : GoVal} (h : ReadsAny x c v) : Narrow v := by
  cases h with
  | value k v _ _ _ h => rw [Narrow]; exact simple_narrow h
  | nothing => simp [Narrow]

theorem zero_narrow {n : Str} {k : GoKind} {v : GoVal} (h : Spec.Zero f n k v) : Narrow v := by
  refine Spec.Zero.rec (motive_1 := fun _ _ v _ => Narrow v) (motive_2 := fun _ vs _ => NarrowFields vs)
    ?_ ?_ ?_ ?_ ?_ ?_ ?_ ?_ ?_ ?_ ?_ ?_ ?_ ?_ ?_ h
  all_goals intros
  all_goals first
    | (simp [Narrow, NarrowElems, NarrowFields]; done)
    | (rename_i ih; rw [Narrow]; exact ih)
    | (rename_i ih1 ih2; rw [NarrowFields]; exact ⟨.inl ih1, ih2⟩)

theorem default_narrow {p : FieldParams} {v : GoVal} (h : Narrow v) : Narrow (setDefault p v) ∨ (p.dflt ≠ none ∧ ∃ n, setDefault p v = .enum n) := by
  cases v with
  | int => left; simp [setDefault, Narrow]
  | enum n =>
    cases hp : p.dflt with
    | none => left; rw [setDefault, hp]; exact h
    | some m => right; exact ⟨by simp, _, rfl⟩
  | _ => left; exact h

/-- The numbers of what is read are small. -/
theorem reads_narrow {e : GoExpr} {p : FieldParams} {b : Bytes} {v : GoVal} {rest : Bytes} (h : Decodes f u e p b v rest) :
    Narrow v ∨ (p.dflt ≠ none ∧ ∃ n, v = .enum n) := by
  refine Decodes.rec (motive_1 := fun e p b v rest _ => Narrow v ∨ (p.dflt ≠ none ∧ ∃ n, v = .enum n))
    (motive_2 := fun n k t c v _ => Narrow v) (motive_3 := fun fs b vs rest _ => NarrowFields vs) (motive_4 := fun e b vs _ => NarrowElems vs)
    ?missing ?raw ?iface ?element ?simple ?struct ?slice ?fnil ?fcons ?enil ?econs h
  case missing => intro e p b n k z _ _ _ h; exact default_narrow (zero_narrow h)
  case raw => intro e p b n h c rest _ _; exact .inl (by simp [Narrow])
  case iface => intro e p b n x l v _ _ _ h; exact .inl (any_narrow h)
  case element => intro e p b n k tag comp t c rest v _ _ _ _ ih; exact .inl ih
  case simple => intro n k t c v h; exact simple_narrow h
  case struct => intro n fs t c rest vs _ ih; rw [Narrow]; exact ih
  case slice => intro n e t c vs _ _ _ _ _ ih; rw [Narrow]; exact ih
  case fnil => intro b; trivial
  case fcons => intro n e tag fs b b' rest v vs _ _ _ ih1 ih2; rw [NarrowFields]; exact ⟨ih1, ih2⟩
  case enil => intro e; trivial
  case econs =>
    intro e b b' v vs _ _ _ ih1 ih2
    rw [NarrowElems]
    exact ⟨ih1.resolve_right fun h => h.1 rfl, ih2⟩

/-! ### Values that are the same -/

theorem sameElems_mem {t : MTy} {xs ys : List AsnVal} (h : SameElems l t xs ys) : ∀ x ∈ xs, ∃ y ∈ ys, Same l t x y := by
  induction xs generalizing ys with
  | nil => intro x hx; cases hx
  | cons a xs ih =>
    cases h with
    | cons _ _ y _ ys h1 h2 =>
      intro x hx
      rw [List.mem_cons] at hx
      rcases hx with rfl | hx
      · exact ⟨y, by simp, h1⟩
      · obtain ⟨z, hz, h3⟩ := ih h2 x hx
        exact ⟨z, by simp [hz], h3⟩

theorem sameMembers_mem {ms : List Member} {xs ys : List (Option AsnVal)} (h : SameMembers l ms xs ys) :
    ∀ m x, (m, some x) ∈ ms.zip xs → ∃ y, (m, some y) ∈ ms.zip ys ∧ Same l m.type x y := by
  induction ms generalizing xs ys with
  | nil => intro m x hm; simp at hm
  | cons m0 ms ih =>
    intro m x hm
    cases h with
    | present _ a b _ xs ys h1 h2 =>
      rw [List.zip_cons_cons, List.mem_cons] at hm
      rcases hm with hm | hm
      · cases hm; exact ⟨b, by simp, h1⟩
      · obtain ⟨y, hy, h3⟩ := ih h2 m x hm
        exact ⟨y, by rw [List.zip_cons_cons]; exact List.mem_cons_of_mem _ hy, h3⟩
    | absent _ _ xs ys h2 =>
      rw [List.zip_cons_cons, List.mem_cons] at hm
      rcases hm with hm | hm
      · cases hm
      · obtain ⟨y, hy, h3⟩ := ih h2 m x hm
        exact ⟨y, by rw [List.zip_cons_cons]; exact List.mem_cons_of_mem _ hy, h3⟩

theorem same_blank {t : MTy} {x x' : AsnVal} (h : Same l t x x') (hb : Blank l r t x) : Blank l r t x' := by
  refine Same.rec (motive_1 := fun t x x' _ => Blank l r t x → Blank l r t x') (motive_2 := fun ms xs ys _ => BlankMembers l r ms xs → BlankMembers l r ms ys)
    (motive_3 := fun _ _ _ _ => True) ?_ ?_ ?_ ?_ ?_ ?_ ?_ ?_ ?_ ?_ ?_ ?_ ?_ ?_ h hb
  · exact fun _ _ h => h
  · intro a t x y ha _ ih hb
    cases hb with
    | time h => exact absurd ha (h t)
    | ref _ t' _ h1 h2 => cases assigned_unique ha h1; exact .ref _ _ _ ha (ih h2)
  · intro _ _ _ _ _ ih hb
    cases hb with
    | constrained _ _ _ h => exact .constrained _ _ _ (ih h)
  · intro _ _ _ _ _ _ _ ih hb
    cases hb with
    | tagged _ _ _ _ _ h => exact .tagged _ _ _ _ _ (ih h)
  · intro alts e n t x y hm _ ih hb
    cases hb with
    | choice _ t' _ _ hna h =>
      simp only [List.mem_singleton, NamedType.mk.injEq] at hm
      obtain ⟨-, rfl⟩ := hm
      exact .choice _ _ _ _ hna (ih h)
  · intro _ _ _ _ _ ih hb
    cases hb with
    | sequence _ _ _ h => exact .sequence _ _ _ (ih h)
  · intro _ _ _ _ _ ih hb
    cases hb with
    | set _ _ _ h => exact .set _ _ _ (ih h)
  · intro _ _ _ _ _ hb; cases hb
  · intro _ _ _ _ _ _ _ hb; cases hb
  · exact fun h => h
  · intro _ _ _ _ _ _ _ _ ih1 ih2 hb
    cases hb with
    | present _ _ _ _ h1 h2 => exact .present _ _ _ _ (ih1 h1) (ih2 h2)
  · intro _ _ _ _ _ ih hb
    cases hb with
    | absent _ _ _ h => exact .absent _ _ _ (ih h)
  · intros; trivial
  · intros; trivial

variable (l) in
/-- The alternatives of CHOICE types that are seen in the value have names of their own. -/
def SeenNamed (t : MTy) (x : AsnVal) : Prop :=
  ∀ alts e y, Seen l t x (.choice alts e) y → ¬ SomeTagged l alts → ∀ n t1 t2, NamedType.mk n t1 ∈ alts → NamedType.mk n t2 ∈ alts → t1 = t2

theorem seen_named_inside {t t' : MTy} {x x' : AsnVal} (h : SeenNamed l t x) (hi : ∀ t'' y, Seen l t' x' t'' y → Seen l t x t'' y) : SeenNamed l t' x' :=
  fun alts e y hp => h alts e y (hi _ _ hp)

/-- Parts of values that are the same are the same. -/
theorem same_seen {t t' : MTy} {x x' y : AsnVal} (hp : Seen l t x t' y) : SeenNamed l t x → Same l t x x' → ∃ y', Seen l t x' t' y' ∧ Same l t' y y' := by
  induction hp generalizing x' with
  | here => exact fun _ h => ⟨_, .here _ _, h⟩
  | ref a t t' x y ha hp ih =>
    intro hc h
    obtain ⟨y', h1, h2⟩ := ih (seen_named_inside hc fun _ _ => .ref _ _ _ _ _ ha) (same_ref ha h)
    exact ⟨y', .ref _ _ _ _ _ ha h1, h2⟩
  | constrained t t' c x y hp ih =>
    intro hc h
    obtain ⟨y', h1, h2⟩ := ih (x' := x') (seen_named_inside hc fun _ _ => .constrained _ _ _ _ _) (by
      cases h with
      | refl => exact .refl _ _
      | constrained _ _ _ _ h => exact h)
    exact ⟨y', .constrained _ _ _ _ _ h1, h2⟩
  | tagged g t t' k b x y hp ih =>
    intro hc h
    obtain ⟨y', h1, h2⟩ := ih (x' := x') (seen_named_inside hc fun _ _ => .tagged _ _ _ _ _ _ _) (by
      cases h with
      | refl => exact .refl _ _
      | tagged _ _ _ _ _ _ h => exact h)
    exact ⟨y', .tagged _ _ _ _ _ _ _ h1, h2⟩
  | choice alts e n t t' x y hns hm hp ih =>
    intro hc h
    cases h with
    | refl => exact ⟨y, .choice _ _ _ _ _ _ _ hns hm hp, .refl _ _⟩
    | choice _ _ _ t2 _ x2 hm2 h =>
      cases hc _ _ _ (.here _ _) hns n t t2 hm hm2
      obtain ⟨y', h1, h2⟩ := ih (seen_named_inside hc fun _ _ => .choice _ _ _ _ _ _ _ hns hm) h
      exact ⟨y', .choice _ _ _ _ _ _ _ hns hm h1, h2⟩
  | sequence a b vs m t' x y hm hp ih =>
    intro hc h
    cases h with
    | refl => exact ⟨y, .sequence _ _ _ _ _ _ _ hm hp, .refl _ _⟩
    | sequence _ _ _ ys h =>
      obtain ⟨z, h1, h2⟩ := sameMembers_mem h m x hm
      obtain ⟨y', h3, h4⟩ := ih (seen_named_inside hc fun _ _ => .sequence _ _ _ _ _ _ _ hm) h2
      exact ⟨y', .sequence _ _ _ _ _ _ _ h1 h3, h4⟩
  | set a b vs m t' x y hm hp ih =>
    intro hc h
    cases h with
    | refl => exact ⟨y, .set _ _ _ _ _ _ _ hm hp, .refl _ _⟩
    | set _ _ _ ys h =>
      obtain ⟨z, h1, h2⟩ := sameMembers_mem h m x hm
      obtain ⟨y', h3, h4⟩ := ih (seen_named_inside hc fun _ _ => .set _ _ _ _ _ _ _ hm) h2
      exact ⟨y', .set _ _ _ _ _ _ _ h1 h3, h4⟩
  | sequenceOf t t' vs x y hm hp ih =>
    intro hc h
    cases h with
    | refl => exact ⟨y, .sequenceOf _ _ _ _ _ hm hp, .refl _ _⟩
    | sequenceOf _ _ ys h =>
      obtain ⟨z, h1, h2⟩ := sameElems_mem h x hm
      obtain ⟨y', h3, h4⟩ := ih (seen_named_inside hc fun _ _ => .sequenceOf _ _ _ _ _ hm) h2
      exact ⟨y', .sequenceOf _ _ _ _ _ h1 h3, h4⟩
  | setOf t t' vs x y hm hp ih =>
    intro hc h
    cases h with
    | refl => exact ⟨y, .setOf _ _ _ _ _ hm hp, .refl _ _⟩
    | setOf _ _ ys zs h hperm =>
      obtain ⟨z, h1, h2⟩ := sameElems_mem h x hm
      obtain ⟨y', h3, h4⟩ := ih (seen_named_inside hc fun _ _ => .setOf _ _ _ _ _ hm) h2
      exact ⟨y', .setOf _ _ _ _ _ (hperm.mem_iff.2 h1) h3, h4⟩

theorem same_fits {t : MTy} {x x' : AsnVal} (hc : SeenNamed l t x) (h : Same l t x x') (hf : Fits l r t x') : Fits l r t x := by
  intro t' y hy
  obtain ⟨y', h1, h2⟩ := same_seen hy hc h
  by_cases hfl : Flat y
  · rw [← same_flat h2 hfl]; exact hf _ _ h1
  · exact composed_fits hfl

theorem same_small {t : MTy} {x x' : AsnVal} (hc : SeenNamed l t x) (h : Same l t x x') (hf : ReadSmall l t x') : ReadSmall l t x := by
  intro t' y hy
  obtain ⟨y', h1, h2⟩ := same_seen hy hc h
  by_cases hfl : Flat y
  · rw [← same_flat h2 hfl]; exact hf _ _ h1
  · exact composed_small hfl

/-- Without CHOICE types held in raw values, all parts are seen. -/
theorem part_seen {t t' : MTy} {x y : AsnVal} (hp : PartAt l t x t' y) : (∀ alts e z, Seen l t x (.choice alts e) z → ¬ SomeTagged l alts) → Seen l t x t' y := by
  induction hp with
  | here => exact fun _ => .here _ _
  | ref a t t' x y ha _ ih => exact fun h => .ref _ _ _ _ _ ha (ih fun _ _ _ hz => h _ _ _ (.ref _ _ _ _ _ ha hz))
  | constrained t t' c x y _ ih => exact fun h => .constrained _ _ _ _ _ (ih fun _ _ _ hz => h _ _ _ (.constrained _ _ _ _ _ hz))
  | tagged g t t' k b x y _ ih => exact fun h => .tagged _ _ _ _ _ _ _ (ih fun _ _ _ hz => h _ _ _ (.tagged _ _ _ _ _ _ _ hz))
  | choice alts e n t t' x y hm _ ih =>
    exact fun h => .choice _ _ _ _ _ _ _ (h _ _ _ (.here _ _)) hm (ih fun _ _ _ hz => h _ _ _ (.choice _ _ _ _ _ _ _ (h _ _ _ (.here _ _)) hm hz))
  | sequence a b vs m t' x y hm _ ih => exact fun h => .sequence _ _ _ _ _ _ _ hm (ih fun _ _ _ hz => h _ _ _ (.sequence _ _ _ _ _ _ _ hm hz))
  | set a b vs m t' x y hm _ ih => exact fun h => .set _ _ _ _ _ _ _ hm (ih fun _ _ _ hz => h _ _ _ (.set _ _ _ _ _ _ _ hm hz))
  | sequenceOf t t' vs x y hm _ ih => exact fun h => .sequenceOf _ _ _ _ _ hm (ih fun _ _ _ hz => h _ _ _ (.sequenceOf _ _ _ _ _ hm hz))
  | setOf t t' vs x y hm _ ih => exact fun h => .setOf _ _ _ _ _ hm (ih fun _ _ _ hz => h _ _ _ (.setOf _ _ _ _ _ hm hz))

theorem same_told {t : MTy} {x x' : AsnVal} (hc : SeenNamed l t x) (h : Same l t x x') (ht : OptionalsTold l r t x') : OptionalsTold l r t x := by
  have key : ∀ a b vs vs' m y, Seen l t x' (.sequence a b) (.record vs') ∨ Seen l t x' (.set a b) (.record vs') → SameMembers l (members (a ++ b)) vs vs' →
      (m, some y) ∈ (members (a ++ b)).zip vs → m.optional = true → ¬ Blank l r m.type y := by
    intro a b vs vs' m y hp hs hm ho hb
    obtain ⟨y', h1, h2⟩ := sameMembers_mem hs m y hm
    exact ht a b vs' hp m y' h1 ho (same_blank h2 hb)
  rintro a b vs (hp | hp) m y hm ho
  · obtain ⟨y', h1, h2⟩ := same_seen hp hc h
    cases h2 with
    | refl => exact ht a b vs (.inl h1) m y hm ho
    | sequence _ _ _ ys h2 => exact key a b vs ys m y (.inl h1) h2 hm ho
  · obtain ⟨y', h1, h2⟩ := same_seen hp hc h
    cases h2 with
    | refl => exact ht a b vs (.inr h1) m y hm ho
    | set _ _ _ ys h2 => exact key a b vs ys m y (.inr h1) h2 hm ho

end Asn1go.Deco
