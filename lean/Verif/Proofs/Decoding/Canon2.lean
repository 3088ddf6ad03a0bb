import Verif.Proofs.Decoding.Canon
import Verif.Proofs.Decoding.Told

/-! DER encodings are unique. -/

namespace Asn1go.Deco

open Asn1go Spec CG Enco

variable {l : List MAssignment} {d : Int}

/-! ### Values that are the same -/

theorem same_flat {t : MTy} {x y : AsnVal} (h : Same l t x y) (hf : Flat x) : y = x := by
  refine Same.rec (motive_1 := fun _ x y _ => Flat x → y = x) (motive_2 := fun _ _ _ _ => True) (motive_3 := fun _ _ _ _ => True)
    ?_ ?_ ?_ ?_ ?_ ?_ ?_ ?_ ?_ ?_ ?_ ?_ ?_ ?_ h hf
  · exact fun _ _ _ => rfl
  · exact fun _ _ _ _ _ _ ih => ih
  · exact fun _ _ _ _ _ ih => ih
  · exact fun _ _ _ _ _ _ _ ih => ih
  · exact fun _ _ _ _ _ _ _ _ _ hf => absurd rfl (hf.2.2 _ _)
  · exact fun _ _ _ _ _ _ hf => absurd rfl (hf.1 _)
  · exact fun _ _ _ _ _ _ hf => absurd rfl (hf.1 _)
  · exact fun _ _ _ _ _ hf => absurd rfl (hf.2.1 _)
  · exact fun _ _ _ _ _ _ _ hf => absurd rfl (hf.2.1 _)
  all_goals intros; trivial

theorem same_flat' {t : MTy} {x y : AsnVal} (h : Same l t x y) (hf : Flat y) : y = x := by
  refine Same.rec (motive_1 := fun _ x y _ => Flat y → y = x) (motive_2 := fun _ _ _ _ => True) (motive_3 := fun _ _ _ _ => True)
    ?_ ?_ ?_ ?_ ?_ ?_ ?_ ?_ ?_ ?_ ?_ ?_ ?_ ?_ h hf
  · exact fun _ _ _ => rfl
  · exact fun _ _ _ _ _ _ ih => ih
  · exact fun _ _ _ _ _ ih => ih
  · exact fun _ _ _ _ _ _ _ ih => ih
  · exact fun _ _ _ _ _ _ _ _ _ hf => absurd rfl (hf.2.2 _ _)
  · exact fun _ _ _ _ _ _ hf => absurd rfl (hf.1 _)
  · exact fun _ _ _ _ _ _ hf => absurd rfl (hf.1 _)
  · exact fun _ _ _ _ _ hf => absurd rfl (hf.2.1 _)
  · exact fun _ _ _ _ _ _ _ hf => absurd rfl (hf.2.1 _)
  all_goals intros; trivial

theorem same_ref {a : Str} {t : MTy} {x y : AsnVal} (ha : Assigned l a t) (h : Same l (.ref a) x y) : Same l t x y := by
  cases h with
  | refl => exact .refl _ _
  | ref _ t' _ _ h1 h2 => cases assigned_unique ha h1; exact h2

theorem same_constrained {t : MTy} {c : Constraint DefinedValue (Value DefinedValue)} {x y : AsnVal} (h : Same l (.constrained t c) x y) : Same l t x y := by
  cases h with
  | refl => exact .refl _ _
  | constrained _ _ _ _ h => exact h

theorem same_tagged {g : Tag DefinedValue} {t : MTy} {k : Int} {b : Bool} {x y : AsnVal} (h : Same l (.tagged g t k b) x y) : Same l t x y := by
  cases h with
  | refl => exact .refl _ _
  | tagged _ _ _ _ _ _ h => exact h

theorem same_members_refl {strict : Bool} {xs : List Member} {vs : List (Option AsnVal)} {es : List (AsnTag × Bytes)} (h : EncMembers strict l d xs vs es) :
    SameMembers l xs vs vs := by
  refine EncMembers.rec (motive_1 := fun _ _ _ _ _ _ => True) (motive_2 := fun xs vs _ _ => SameMembers l xs vs vs) (motive_3 := fun _ _ _ _ => True)
    ?_ ?_ ?_ ?_ ?_ ?_ ?_ ?_ ?_ ?_ ?_ ?_ ?_ ?_ ?_ ?_ ?_ ?_ ?_ ?_ ?_ ?_ ?_ h
  rotate_left 17
  · exact .nil
  · exact fun x v _ _ _ _ xs vs es _ _ _ _ _ ih => .present _ _ _ _ _ _ (.refl _ _) ih
  · exact fun x xs vs es _ _ ih => .absent _ _ _ _ ih
  · exact fun x v _ xs vs es _ _ _ ih => .present _ _ _ _ _ _ (.refl _ _) ih
  all_goals intros; trivial

theorem same_elems_refl (t : MTy) : ∀ xs : List AsnVal, SameElems l t xs xs
  | [] => .nil _
  | _ :: xs => .cons _ _ _ _ _ (.refl _ _) (same_elems_refl t xs)

theorem default_same {t : MTy} {dv : Value DefinedValue} {x y : AsnVal} (hs : Same l t x y) : DefaultIs l t dv x → DefaultIs l t dv y := by
  intro h
  have : Flat x := by cases h <;> exact ⟨by simp, by simp, by simp⟩
  rw [same_flat hs this]
  exact h

theorem flat_of_default {t : MTy} {dv : Value DefinedValue} {x : AsnVal} (h : DefaultIs l t dv x) : Flat x := by
  cases h <;> exact ⟨by simp, by simp, by simp⟩

/-! ### Elements in another order -/

theorem encElems_perm {strict : Bool} {t : MTy} {xs ys : List AsnVal} (hp : xs.Perm ys) : ∀ {es : List Bytes}, EncElems strict l d t xs es →
    ∃ fs, EncElems strict l d t ys fs ∧ es.Perm fs := by
  induction hp with
  | nil => intro es h; exact ⟨es, h, .refl _⟩
  | cons x _ ih =>
    intro es h
    cases h with
    | cons _ _ tag k c e _ es h1 h2 h3 =>
      obtain ⟨fs, h4, h5⟩ := ih h3
      exact ⟨_, .cons _ _ _ _ _ _ _ _ h1 h2 h4, h5.cons _⟩
  | swap x y _ =>
    intro es h
    cases h with
    | cons _ _ tag k c e _ es h1 h2 h3 =>
      cases h3 with
      | cons _ _ tag' k' c' e' _ es h4 h5 h6 => exact ⟨_, .cons _ _ _ _ _ _ _ _ h4 h5 (.cons _ _ _ _ _ _ _ _ h1 h2 h6), .swap _ _ _⟩
  | trans _ _ ih1 ih2 =>
    intro es h
    obtain ⟨fs, h1, h2⟩ := ih1 h
    obtain ⟨gs, h3, h4⟩ := ih2 h1
    exact ⟨gs, h3, h2.trans h4⟩

theorem encElems_encoding {strict : Bool} {t : MTy} {xs : List AsnVal} {es : List Bytes} (h : EncElems strict l d t xs es) :
    ∀ e ∈ es, ∃ tag k c, Encoding tag k c e := by
  refine EncElems.rec (motive_1 := fun _ _ _ _ _ _ => True) (motive_2 := fun _ _ _ _ => True) (motive_3 := fun _ _ es _ => ∀ e ∈ es, ∃ tag k c, Encoding tag k c e)
    ?_ ?_ ?_ ?_ ?_ ?_ ?_ ?_ ?_ ?_ ?_ ?_ ?_ ?_ ?_ ?_ ?_ ?_ ?_ ?_ ?_ ?_ ?_ h
  rotate_left 21
  · exact fun _ e he => by simp at he
  · intro t v tag k c e vs es _ h1 _ _ ih e' he
    rcases List.mem_cons.1 he with rfl | he
    · exact ⟨_, _, _, h1⟩
    · exact ih e' he
  all_goals intros; trivial

/-! ### All types -/

theorem named_inside {t t' : MTy} {x x' : AsnVal} (h : ChoicesNamed l t x) (hi : ∀ t'' y, PartAt l t' x' t'' y → PartAt l t x t'' y) :
    ChoicesNamed l t' x' :=
  fun alts e y hp => h alts e y (hi _ _ hp)

variable (l d) in
def UniqueStmt (t : MTy) (x : AsnVal) (tag : AsnTag) (k : Bool) (c : Bytes) : Prop :=
  ∀ x' tag' k' c', ChoicesNamed l t x → Same l t x x' → Enc true l d t x' tag' k' c' → tag = tag' ∧ k = k' ∧ c = c'

variable (l d) in
def UniqueMembers (xs : List Member) (vs : List (Option AsnVal)) (es : List (AsnTag × Bytes)) : Prop :=
  ∀ vs' es', (∀ m y, (m, some y) ∈ xs.zip vs → ChoicesNamed l m.type y) → SameMembers l xs vs vs' → EncMembers true l d xs vs' es' → es = es'

variable (l d) in
def UniqueElems (t : MTy) (xs : List AsnVal) (es : List Bytes) : Prop :=
  ∀ xs' es', (∀ x ∈ xs, ChoicesNamed l t x) → SameElems l t xs xs' → EncElems true l d t xs' es' → es = es'

theorem tag_lt_asymm {a b : AsnTag} (h : a.lt b) : ¬ b.lt a := by
  unfold AsnTag.lt at *
  omega

theorem der_unique {t : MTy} {x : AsnVal} {tag : AsnTag} {k : Bool} {c : Bytes} (h : Enc true l d t x tag k c) : UniqueStmt l d t x tag k c := by
  refine Enc.rec (motive_1 := fun t x tag k c _ => UniqueStmt l d t x tag k c) (motive_2 := fun xs vs es _ => UniqueMembers l d xs vs es)
    (motive_3 := fun t vs es _ => UniqueElems l d t vs es)
    ?boolean ?integer ?enumerated ?octetString ?bitString ?oid ?string ?time ?ref ?constrained ?explicit ?implicit ?choice ?sequence ?set ?sequenceOf ?setOf
    ?mnil ?mpresent ?mabsent ?mdefault ?enil ?econs h
  case boolean =>
    intro b x' tag' k' c' _ hs he
    cases same_flat hs ⟨by simp, by simp, by simp⟩
    cases he
    exact ⟨rfl, rfl, rfl⟩
  case integer =>
    intro nums n c h1 x' tag' k' c' _ hs he
    cases same_flat hs ⟨by simp, by simp, by simp⟩
    cases he with
    | integer _ _ _ h2 => exact ⟨rfl, rfl, integer_unique h1 h2⟩
  case enumerated =>
    intro a b n c h1 x' tag' k' c' _ hs he
    cases same_flat hs ⟨by simp, by simp, by simp⟩
    cases he with
    | enumerated _ _ _ _ h2 => exact ⟨rfl, rfl, integer_unique h1 h2⟩
  case octetString =>
    intro b x' tag' k' c' _ hs he
    cases same_flat hs ⟨by simp, by simp, by simp⟩
    cases he
    exact ⟨rfl, rfl, rfl⟩
  case bitString =>
    intro nb b c h1 _ x' tag' k' c' _ hs he
    cases same_flat hs ⟨by simp, by simp, by simp⟩
    cases he with
    | bitString _ _ _ h2 => exact ⟨rfl, rfl, bits_unique h1 h2⟩
  case oid =>
    intro o c h1 x' tag' k' c' _ hs he
    cases same_flat hs ⟨by simp, by simp, by simp⟩
    cases he with
    | objectIdentifier _ _ h2 => exact ⟨rfl, rfl, oid_unique h1 h2⟩
  case string =>
    intro k tag ok enc q h1 _ x' tag' k' c' _ hs he
    cases same_flat hs ⟨by simp, by simp, by simp⟩
    cases he with
    | string _ _ _ _ _ h2 =>
      obtain ⟨rfl, rfl⟩ := stringKind_unique h1 h2
      exact ⟨rfl, rfl, rfl⟩
  case time =>
    intro t h1 _ x' tag' k' c' _ hs he
    cases same_flat hs ⟨by simp, by simp, by simp⟩
    generalize hq : c! "GeneralizedTime" = q at he
    cases he with
    | time => exact ⟨rfl, rfl, rfl⟩
    | ref _ t' _ _ _ _ h2 => subst hq; exact absurd h2 (h1 t')
  case ref =>
    intro a t v tag k c h1 _ ih x' tag' k' c' hn hs he
    generalize hq : a = q at he
    cases he with
    | time _ h2 => subst hq; exact absurd h1 (h2 t)
    | ref _ t' _ _ _ _ h2 h3 =>
      subst hq
      cases assigned_unique h1 h2
      exact ih _ _ _ _ (named_inside hn fun _ _ hp => .ref _ _ _ _ _ h1 hp) (same_ref h1 hs) h3
  case constrained =>
    intro t y v tag k c _ ih x' tag' k' c' hn hs he
    cases he with
    | constrained _ _ _ _ _ _ h => exact ih _ _ _ _ (named_inside hn fun _ _ hp => .constrained _ _ _ _ _ hp) (same_constrained hs) h
  case explicit =>
    intro cls n t kind b v tag k c e h1 _ h2 ih x' tag' k' c' hn hs he
    have hn' := named_inside hn fun _ _ hp => PartAt.tagged ⟨cls, .number n⟩ _ _ kind b _ _ hp
    cases he with
    | explicit _ _ _ _ _ _ tag1 k1 c1 _ _ h3 h4 =>
      obtain ⟨rfl, rfl, rfl⟩ := ih _ _ _ _ hn' (same_tagged hs) h3
      exact ⟨rfl, rfl, encoding_unique h2 h4⟩
    | implicit _ _ _ _ _ _ _ _ _ h3 h4 =>
      rcases h1 with h1 | h1
      · rw [h1] at h3; exact absurd h3 (by decide)
      · exact absurd h1 h4
  case implicit =>
    intro cls n t kind b v tag k c h1 h2 _ ih x' tag' k' c' hn hs he
    have hn' := named_inside hn fun _ _ hp => PartAt.tagged ⟨cls, .number n⟩ _ _ kind b _ _ hp
    cases he with
    | explicit _ _ _ _ _ _ tag1 k1 c1 _ h3 =>
      rcases h3 with h3 | h3
      · rw [h3] at h1; exact absurd h1 (by decide)
      · exact absurd h3 h2
    | implicit _ _ _ _ _ _ _ _ _ _ _ h3 =>
      obtain ⟨rfl, rfl, rfl⟩ := ih _ _ _ _ hn' (same_tagged hs) h3
      exact ⟨rfl, rfl, rfl⟩
  case choice =>
    intro alts e n t v tag k c h1 _ ih x' tag' k' c' hn hs he
    have hn' := named_inside hn fun _ _ hp => PartAt.choice _ e _ _ _ _ _ h1 hp
    have hs' : ∃ w, x' = .choice n w ∧ Same l t v w := by
      cases hs with
      | refl => exact ⟨_, rfl, .refl _ _⟩
      | choice _ _ _ t' _ w h2 h3 =>
        cases hn alts e _ (.here _ _) n t t' h1 h2
        exact ⟨w, rfl, h3⟩
    obtain ⟨w, rfl, hw⟩ := hs'
    cases he with
    | choice _ _ _ t' _ _ _ _ h2 h3 =>
      cases hn alts e _ (.here _ _) n t t' h1 h2
      exact ih _ _ _ _ hn' hw h3
  case sequence =>
    intro a b vs es h1 ih x' tag' k' c' hn hs he
    have hs' : ∃ ws, x' = .record ws ∧ SameMembers l (members (a ++ b)) vs ws := by
      cases hs with
      | refl => exact ⟨_, rfl, same_members_refl h1⟩
      | sequence _ _ _ ws h => exact ⟨ws, rfl, h⟩
    obtain ⟨ws, rfl, hw⟩ := hs'
    cases he with
    | sequence _ _ _ es' h2 =>
      rw [ih ws es' (fun m y hm => named_inside hn fun _ _ hp => .sequence _ _ _ _ _ _ _ hm hp) hw h2]
      exact ⟨rfl, rfl, rfl⟩
  case set =>
    intro a b vs es es' h1 h2 h3 ih x' tag' k' c' hn hs he
    have hs' : ∃ ws, x' = .record ws ∧ SameMembers l (members (a ++ b)) vs ws := by
      cases hs with
      | refl => exact ⟨_, rfl, same_members_refl h1⟩
      | set _ _ _ ws h => exact ⟨ws, rfl, h⟩
    obtain ⟨ws, rfl, hw⟩ := hs'
    cases he with
    | set _ _ _ fs fs' h4 h5 h6 =>
      have := ih ws fs (fun m y hm => named_inside hn fun _ _ hp => .set _ _ _ _ _ _ _ hm hp) hw h4
      subst this
      have : es' = fs' := List.Perm.eq_of_pairwise (fun a b _ _ hab hba => absurd hba (tag_lt_asymm hab)) (h3 rfl) (h6 rfl) (h2.trans h5.symm)
      subst this
      exact ⟨rfl, rfl, rfl⟩
  case sequenceOf =>
    intro t vs es _ ih x' tag' k' c' hn hs he
    have hs' : ∃ ws, x' = .list ws ∧ SameElems l t vs ws := by
      cases hs with
      | refl => exact ⟨_, rfl, same_elems_refl _ _⟩
      | sequenceOf _ _ ws h => exact ⟨ws, rfl, h⟩
    obtain ⟨ws, rfl, hw⟩ := hs'
    cases he with
    | sequenceOf _ _ es' h2 =>
      rw [ih ws es' (fun x hx => named_inside hn fun _ _ hp => .sequenceOf _ _ _ _ _ hx hp) hw h2]
      exact ⟨rfl, rfl, rfl⟩
  case setOf =>
    intro t vs es es' h1 h2 h3 ih x' tag' k' c' hn hs he
    have hs' : ∃ ys ws, x' = .list ws ∧ SameElems l t vs ys ∧ ws.Perm ys := by
      cases hs with
      | refl => exact ⟨_, _, rfl, same_elems_refl _ _, .refl _⟩
      | setOf _ _ ys ws h hp => exact ⟨ys, ws, rfl, h, hp⟩
    obtain ⟨ys, ws, rfl, hw, hp⟩ := hs'
    cases he with
    | setOf _ _ fs fs' h4 h5 h6 =>
      obtain ⟨gs, h7, h8⟩ := encElems_perm hp h4
      have := ih ys gs (fun x hx => named_inside hn fun _ _ hp => .setOf _ _ _ _ _ hx hp) hw h7
      subst this
      have : es' = fs' := by
        refine List.Perm.eq_of_pairwise (fun a b ha hb hab hba => ?_) (h3 rfl) (h6 rfl) (h2.trans (h8.symm.trans h5.symm))
        obtain ⟨_, _, _, ea⟩ := encElems_encoding h1 a (h2.mem_iff.1 ha)
        obtain ⟨_, _, _, eb⟩ := encElems_encoding h4 b (h5.mem_iff.1 hb)
        exact padded_antisymm ea eb hab hba
      subst this
      exact ⟨rfl, rfl, rfl⟩
  case mnil =>
    intro vs' es' _ hs he
    cases hs
    cases he
    rfl
  case mpresent =>
    intro x v tag k c e xs vs es _ h1 h2 _ ih1 ih2 vs' es' hn hs he
    cases hs with
    | present _ _ w _ _ ws hs1 hs2 =>
      cases he with
      | present _ _ tag' k' c' e' _ _ es' h3 h4 _ h5 =>
        obtain ⟨rfl, rfl, rfl⟩ := ih1 _ _ _ _ (hn x v (by simp)) hs1 h3
        rw [encoding_unique h1 h4, ih2 ws es' (fun m y hm => hn m y (by simp [hm])) hs2 h5]
      | default _ _ dv _ _ _ h3 h4 _ =>
        have hv := same_flat' hs1 (flat_of_default h4)
        subst hv
        exact absurd h4 (h2 rfl dv h3)
  case mabsent =>
    intro x xs vs es _ _ ih vs' es' hn hs he
    cases hs with
    | absent _ _ _ ws hs =>
      cases he with
      | absent _ _ _ _ _ h => exact ih ws _ (fun m y hm => hn m y (by simp [hm])) hs h
  case mdefault =>
    intro x v dv xs vs es h1 h2 _ ih vs' es' hn hs he
    cases hs with
    | present _ _ w _ _ ws hs1 hs2 =>
      cases same_flat hs1 (flat_of_default h2)
      cases he with
      | present _ _ tag' k' c' e' _ _ es' _ _ h3 _ => exact absurd h2 (h3 rfl dv h1)
      | default _ _ dv _ _ _ h3 h4 h5 => exact ih ws _ (fun m y hm => hn m y (by simp [hm])) hs2 h5
  case enil =>
    intro t xs' es' _ hs he
    cases hs
    cases he
    rfl
  case econs =>
    intro t v tag k c e vs es _ h1 _ ih1 ih2 xs' es' hn hs he
    cases hs with
    | cons _ _ w _ ws hs1 hs2 =>
      cases he with
      | cons _ _ tag' k' c' e' _ es' h3 h4 h5 =>
        obtain ⟨rfl, rfl, rfl⟩ := ih1 _ _ _ _ (hn v (by simp)) hs1 h3
        rw [encoding_unique h1 h4, ih2 ws es' (fun x hx => hn x (by simp [hx])) hs2 h5]

end Asn1go.Deco
