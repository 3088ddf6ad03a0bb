import Verif.Proofs.Decoding.Canon2

/-! Go values stand for one abstract value, and values that are the same. -/

namespace Asn1go.Deco

open Asn1go Spec CG Enco

variable {l : List MAssignment}

/-- No CHOICE in the value is held in an interface or an `asn1.RawValue`. -/
def PlainChoices (l : List MAssignment) (t : MTy) (x : AsnVal) : Prop := ∀ alts e y, Seen l t x (.choice alts e) y → ¬ SomeTagged l alts ∧ alts.length = 1

/-- No CHOICE in the components. -/
def PlainMembers (l : List MAssignment) (ms : List Member) (vs : List (Option AsnVal)) : Prop := ∀ m x, (m, some x) ∈ ms.zip vs → PlainChoices l m.type x

theorem plain_tail {m : Member} {o : Option AsnVal} {ms : List Member} {vs : List (Option AsnVal)} (h : PlainMembers l (m :: ms) (o :: vs)) : PlainMembers l ms vs :=
  fun m' x hx => h m' x (List.mem_cons_of_mem _ hx)

theorem plain_head {m : Member} {x : AsnVal} {ms : List Member} {vs : List (Option AsnVal)} (h : PlainMembers l (m :: ms) (some x :: vs)) : PlainChoices l m.type x :=
  h m x (List.mem_cons_self ..)

/-! ### What a Go value stands for -/

mutual

theorem means_unique {B : Held} {t : MTy} {v : GoVal} {x x' : AsnVal} : Means l B t v x → Means l B t v x' → PlainChoices l t x → x = x'
  | .boolean _, h', _ => by cases h'; rfl
  | .integer _ _, h', _ => by cases h'; rfl
  | .bigInteger _ _, h', _ => by cases h'; rfl
  | .enumerated _ _ _, h', _ => by cases h'; rfl
  | .octetString _, h', _ => by cases h'; rfl
  | .bitString _ b bits k _ h2 _, h', _ => by
    generalize hv : GoVal.bits b bits.length = v at h'
    cases h' with
    | bitString _ b' bits' k' h1' h2' _ =>
      simp only [GoVal.bits.injEq, Int.natCast_inj] at hv
      obtain ⟨rfl, hl⟩ := hv
      rw [h2] at h2'
      rw [(List.append_inj h2' hl).1]
  | .objectIdentifier a b r _ _ _, h', _ => by
    generalize hv : GoVal.oid (some ((a :: b :: r).map Int.ofNat)) = v at h'
    cases h' with
    | objectIdentifier a' b' r' _ _ _ =>
      have : (a :: b :: r).map Int.ofNat = (a' :: b' :: r').map Int.ofNat := Option.some.inj (GoVal.oid.inj hv)
      rw [List.map_injective_iff.2 (fun _ _ h => Int.ofNat.inj h) this]
  | .string _ _ _ _ _ _ _, h', _ => by cases h'; rfl
  | .time t h1 _, h', _ => by
    generalize hv : GoVal.time _ = v at h'
    cases h' with
    | time t' _ _ =>
      obtain ⟨_, _, _, _, _, _⟩ := t
      obtain ⟨_, _, _, _, _, _⟩ := t'
      simp only [GoVal.time.injEq, GoTime.mk.injEq] at hv
      obtain ⟨h1, h2, h3, h4, h5, h6, -⟩ := hv
      simp_all
    | ref _ t' _ _ h2 _ => exact absurd h2 (h1 _)
  | .ref a t v x h1 h2, h', hp => by
    cases h' with
    | time t' h3 _ => exact absurd h1 (h3 _)
    | ref _ t' _ _ h3 h4 =>
      cases assigned_unique h1 h3
      exact means_unique h2 h4 fun alts e y hy => hp alts e y (.ref _ _ _ _ _ h1 hy)
  | .constrained t c v x h2, h', hp => by
    cases h' with
    | constrained _ _ _ _ h4 => exact means_unique h2 h4 fun alts e y hy => hp alts e y (.constrained _ _ _ _ _ hy)
  | .tagged g t k b v x h2, h', hp => by
    cases h' with
    | tagged _ _ _ _ _ _ h4 => exact means_unique h2 h4 fun alts e y hy => hp alts e y (.tagged _ _ _ _ _ _ _ hy)
  | .choice n t e v x h1 h2, h', hp => by
    cases h' with
    | choice _ _ _ _ _ h3 h4 =>
      rw [means_unique h2 h4 fun alts e' y hy => hp alts e' y (.choice _ _ _ _ _ _ _ (hp _ _ _ (.here _ _)).1 (List.mem_singleton.2 rfl) hy)]
    | alternative _ _ _ _ _ _ _ _ h3 => exact absurd rfl h3
    | raw _ _ _ _ _ _ _ _ h3 => exact absurd h3 (hp _ _ _ (.here _ _)).1
  | .alternative _ _ _ _ _ _ _ _ h1 _ _ _ _, _, hp => absurd (hp _ _ _ (.here _ _)).2 h1
  | .raw _ _ _ _ _ _ _ _ h1 _ _, _, hp => absurd h1 (hp _ _ _ (.here _ _)).1
  | .sequence a b fs vs h, h', hp => by
    cases h' with
    | sequence _ _ _ _ h4 => rw [means_members_unique h h4 fun m x hm alts e y hy => hp alts e y (.sequence _ _ _ _ _ _ _ hm hy)]
  | .set a b fs vs h, h', hp => by
    cases h' with
    | set _ _ _ _ h4 => rw [means_members_unique h h4 fun m x hm alts e y hy => hp alts e y (.set _ _ _ _ _ _ _ hm hy)]
  | .sequenceOf t n z l' vs h, h', hp => by
    cases h' with
    | sequenceOf _ _ _ _ _ h4 => rw [means_elems_unique h h4 fun x hm alts e y hy => hp alts e y (.sequenceOf _ _ _ _ _ hm hy)]
  | .setOf t n z l' vs h, h', hp => by
    cases h' with
    | setOf _ _ _ _ _ h4 => rw [means_elems_unique h h4 fun x hm alts e y hy => hp alts e y (.setOf _ _ _ _ _ hm hy)]

theorem means_members_unique {B : Held} {ms : List Member} {fs : List GoFieldVal} {vs vs' : List (Option AsnVal)} : MeansMembers l B ms fs vs → MeansMembers l B ms fs vs' →
    PlainMembers l ms vs → vs = vs'
  | .nil, h', _ => by cases h'; rfl
  | .present _ _ _ _ _ _ _ _ h1 h2 h3, h', hp => by
    cases h' with
    | present _ _ _ _ _ _ _ _ h4 h5 h6 => rw [means_unique h2 h5 (plain_head hp), means_members_unique h3 h6 (plain_tail hp)]
    | absent _ _ _ _ _ _ _ h4 h5 h6 => rw [h1 h4] at h5; cases h5
  | .absent _ _ _ _ _ _ _ h1 h2 h3, h', hp => by
    cases h' with
    | present _ _ _ _ _ _ _ _ h4 h5 h6 => rw [h4 h1] at h2; cases h2
    | absent _ _ _ _ _ _ _ h4 h5 h6 => rw [means_members_unique h3 h6 (plain_tail hp)]

theorem means_elems_unique {B : Held} {t : MTy} {ws : List GoVal} {vs vs' : List AsnVal} : MeansElems l B t ws vs → MeansElems l B t ws vs' →
    (∀ x ∈ vs, PlainChoices l t x) → vs = vs'
  | .nil _, h', _ => by cases h'; rfl
  | .cons _ _ _ _ _ h1 h2, h', hp => by
    cases h' with
    | cons _ _ _ _ _ h3 h4 => rw [means_unique h1 h3 (hp _ (List.mem_cons_self ..)), means_elems_unique h2 h4 fun x hx => hp x (List.mem_cons_of_mem _ hx)]

end

/-! ### The same values -/

theorem elems_perm {t : MTy} {ys zs : List AsnVal} (h : ys.Perm zs) : ∀ {xs : List AsnVal}, SameElems l t zs xs → ∃ ws, SameElems l t ys ws ∧ ws.Perm xs := by
  induction h with
  | nil => intro xs h; cases h; exact ⟨[], .nil _, .nil⟩
  | cons y _ ih =>
    intro xs h
    cases h with
    | cons _ _ x _ xs h1 h2 =>
      obtain ⟨ws, h3, h4⟩ := ih h2
      exact ⟨x :: ws, .cons _ _ _ _ _ h1 h3, h4.cons _⟩
  | swap a b zs =>
    intro xs h
    cases h with
    | cons _ _ x _ xs h1 h2 =>
      cases h2 with
      | cons _ _ x' _ xs h3 h4 => exact ⟨x' :: x :: xs, .cons _ _ _ _ _ h3 (.cons _ _ _ _ _ h1 h4), .swap ..⟩
  | trans _ _ ih ih' =>
    intro xs h
    obtain ⟨ws, h1, h2⟩ := ih' h
    obtain ⟨ws', h3, h4⟩ := ih h1
    exact ⟨ws', h3, h4.trans h2⟩

mutual

theorem same_symm {t : MTy} {x y : AsnVal} : Same l t x y → Same l t y x
  | .refl _ _ => .refl _ _
  | .ref _ _ _ _ h h' => .ref _ _ _ _ h (same_symm h')
  | .constrained _ _ _ _ h => .constrained _ _ _ _ (same_symm h)
  | .tagged _ _ _ _ _ _ h => .tagged _ _ _ _ _ _ (same_symm h)
  | .choice _ _ _ _ _ _ h h' => .choice _ _ _ _ _ _ h (same_symm h')
  | .sequence _ _ _ _ h => .sequence _ _ _ _ (members_symm h)
  | .set _ _ _ _ h => .set _ _ _ _ (members_symm h)
  | .sequenceOf _ _ _ h => .sequenceOf _ _ _ (elems_symm h)
  | .setOf t xs ys zs h h' => by
    obtain ⟨ws, h1, h2⟩ := elems_perm h' (elems_symm h)
    exact .setOf _ _ ws _ h1 h2.symm

theorem members_symm {ms : List Member} {xs ys : List (Option AsnVal)} : SameMembers l ms xs ys → SameMembers l ms ys xs
  | .nil => .nil
  | .present _ _ _ _ _ _ h h' => .present _ _ _ _ _ _ (same_symm h) (members_symm h')
  | .absent _ _ _ _ h => .absent _ _ _ _ (members_symm h)

theorem elems_symm {t : MTy} {xs ys : List AsnVal} : SameElems l t xs ys → SameElems l t ys xs
  | .nil _ => .nil _
  | .cons _ _ _ _ _ h h' => .cons _ _ _ _ _ (same_symm h) (elems_symm h')

end

mutual

theorem same_trans {t : MTy} {x y z : AsnVal} : Same l t x y → Same l t y z → PlainChoices l t x → Same l t x z
  | .refl _ _, h', _ => h'
  | .ref _ _ _ _ h1 h2, h', hp => .ref _ _ _ _ h1 (same_trans h2 (same_ref h1 h') fun alts e y hy => hp alts e y (.ref _ _ _ _ _ h1 hy))
  | .constrained _ _ _ _ h, h', hp => .constrained _ _ _ _ (same_trans h (same_constrained h') fun alts e y hy => hp alts e y (.constrained _ _ _ _ _ hy))
  | .tagged _ _ _ _ _ _ h, h', hp => .tagged _ _ _ _ _ _ (same_trans h (same_tagged h') fun alts e y hy => hp alts e y (.tagged _ _ _ _ _ _ _ hy))
  | .choice alts e n t x y h1 h2, h', hp => by
    obtain ⟨h3, h4⟩ := hp _ _ _ (.here _ _)
    have hp' : PlainChoices l t x := fun alts e y hy => hp alts e y (.choice _ _ _ _ _ _ _ h3 h1 hy)
    cases h' with
    | refl => exact .choice _ _ _ _ _ _ h1 h2
    | choice _ _ _ t' _ _ h5 h6 =>
      obtain ⟨q, rfl⟩ := List.length_eq_one_iff.1 h4
      cases (List.mem_singleton.1 h1).trans (List.mem_singleton.1 h5).symm
      exact .choice _ _ _ _ _ _ h1 (same_trans h2 h6 hp')
  | .sequence a b xs ys h, h', hp => by
    have hp' : PlainMembers l (members (a ++ b)) xs := fun m x hm alts e y hy => hp alts e y (.sequence _ _ _ _ _ _ _ hm hy)
    cases h' with
    | refl => exact .sequence _ _ _ _ h
    | sequence _ _ _ _ h6 => exact .sequence _ _ _ _ (members_trans h h6 hp')
  | .set a b xs ys h, h', hp => by
    have hp' : PlainMembers l (members (a ++ b)) xs := fun m x hm alts e y hy => hp alts e y (.set _ _ _ _ _ _ _ hm hy)
    cases h' with
    | refl => exact .set _ _ _ _ h
    | set _ _ _ _ h6 => exact .set _ _ _ _ (members_trans h h6 hp')
  | .sequenceOf t xs ys h, h', hp => by
    have hp' : ∀ x ∈ xs, PlainChoices l t x := fun x hm alts e y hy => hp alts e y (.sequenceOf _ _ _ _ _ hm hy)
    cases h' with
    | refl => exact .sequenceOf _ _ _ h
    | sequenceOf _ _ _ h6 => exact .sequenceOf _ _ _ (elems_trans h h6 hp')
  | .setOf t xs ys zs h h1, h', hp => by
    have hp' : ∀ x ∈ xs, PlainChoices l t x := fun x hm alts e y hy => hp alts e y (.setOf _ _ _ _ _ hm hy)
    cases h' with
    | refl => exact .setOf _ _ _ _ h h1
    | setOf _ _ _ _ h6 h7 =>
      obtain ⟨ws, h8, h9⟩ := elems_perm h1.symm h6
      exact .setOf _ _ ws _ (elems_trans h h8 hp') (h7.trans h9.symm)

theorem members_trans {ms : List Member} {xs ys zs : List (Option AsnVal)} : SameMembers l ms xs ys → SameMembers l ms ys zs → PlainMembers l ms xs → SameMembers l ms xs zs
  | .nil, h', _ => h'
  | .present _ _ _ _ _ _ h1 h2, h', hp => by
    cases h' with
    | present _ _ _ _ _ _ h3 h4 => exact .present _ _ _ _ _ _ (same_trans h1 h3 (plain_head hp)) (members_trans h2 h4 (plain_tail hp))
  | .absent _ _ _ _ h2, h', hp => by
    cases h' with
    | absent _ _ _ _ h4 => exact .absent _ _ _ _ (members_trans h2 h4 (plain_tail hp))

theorem elems_trans {t : MTy} {xs ys zs : List AsnVal} : SameElems l t xs ys → SameElems l t ys zs → (∀ x ∈ xs, PlainChoices l t x) → SameElems l t xs zs
  | .nil _, h', _ => h'
  | .cons _ _ _ _ _ h1 h2, h', hp => by
    cases h' with
    | cons _ _ _ _ _ h3 h4 => exact .cons _ _ _ _ _ (same_trans h1 h3 (hp _ (List.mem_cons_self ..))) (elems_trans h2 h4 fun x hx => hp x (List.mem_cons_of_mem _ hx))

end

end Asn1go.Deco
