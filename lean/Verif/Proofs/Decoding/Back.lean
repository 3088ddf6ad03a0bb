import Verif.Proofs.Decoding.Exact
import Verif.Proofs.Decoding.Kinds2

/-! Values read into interfaces are of the types of alternatives that are given back. -/

namespace Asn1go.Deco

open Asn1go Spec CG Enco

variable {u : Casing} {l : List MAssignment} {d : Int} {r : Str} {f : GoFile} {strict : Bool} {op : Open} {s : Str → Prop}

/-! ### What interfaces hold -/

/-- The value is one that can be read into an interface. -/
def AnyHeld : GoVal → Prop
  | .int _ | .bits _ _ | .bytes _ | .oid _ | .str _ | .time _ => True
  | _ => False

mutual

/-- All interfaces in the value hold such values. -/
def Plain : GoVal → Prop
  | .iface v => AnyHeld v
  | .slice _ _ l => PlainElems l
  | .struct fs => PlainFields fs
  | _ => True

def PlainElems : List GoVal → Prop
  | [] => True
  | v :: l => Plain v ∧ PlainElems l

def PlainFields : List GoFieldVal → Prop
  | [] => True
  | .mk _ _ v :: l => Plain v ∧ PlainFields l

end

theorem any_plain {x : Header} {c : Bytes} {v : GoVal} (h : ReadsAny x c v) : Plain v := by
  cases h with
  | value k v _ _ hk h =>
    rw [Plain]
    have : k = .int ∨ k = .bits ∨ k = .bytes ∨ k = .oid ∨ k = .string ∨ k = .time := by
      unfold anyKind at hk
      split at hk <;> simp_all
    generalize x.tag = m at h
    rcases this with rfl | rfl | rfl | rfl | rfl | rfl <;> cases h <;> trivial
  | nothing => simp [Plain]

theorem zero_plain {n : Str} {k : GoKind} {v : GoVal} (h : Spec.Zero f n k v) : Plain v := by
  refine Spec.Zero.rec (motive_1 := fun _ _ v _ => Plain v) (motive_2 := fun _ vs _ => PlainFields vs)
    ?_ ?_ ?_ ?_ ?_ ?_ ?_ ?_ ?_ ?_ ?_ ?_ ?_ ?_ ?_ h
  all_goals intros; first
    | (simp [Plain, PlainElems, PlainFields]; done)
    | (rename_i ih; rw [Plain]; exact ih)
    | (rename_i ih1 ih2; rw [PlainFields]; exact ⟨ih1, ih2⟩)

theorem default_plain {p : FieldParams} {v : GoVal} (h : Plain v) : Plain (setDefault p v) := by
  unfold setDefault
  split <;> first | exact h | simp [Plain]

/-- So it is for what is read. -/
theorem reads_plain {e : GoExpr} {p : FieldParams} {b : Bytes} {v : GoVal} {rest : Bytes} (h : Decodes f u e p b v rest) : Plain v := by
  refine Decodes.rec (motive_1 := fun e p b v rest _ => Plain v)
    (motive_2 := fun n k t c v _ => Plain v) (motive_3 := fun fs b vs rest _ => PlainFields vs) (motive_4 := fun e b vs _ => PlainElems vs)
    ?missing ?raw ?iface ?element ?simple ?struct ?slice ?fnil ?fcons ?enil ?econs h
  case missing => intro e p b n k z _ _ _ h; exact default_plain (zero_plain h)
  case raw => intro e p b n h c rest _ _; simp [Plain]
  case iface => intro e p b n x l v _ _ _ h; exact any_plain h
  case element => intro e p b n k tag comp t c rest v _ _ _ _ ih; exact ih
  case simple => intro n k t c v h; cases h <;> simp [Plain]
  case struct => intro n fs t c rest vs _ ih; rw [Plain]; exact ih
  case slice => intro n e t c vs _ _ _ _ _ ih; rw [Plain]; exact ih
  case fnil => intro b; trivial
  case fcons => intro n e tag fs b b' rest v vs _ _ _ ih1 ih2; rw [PlainFields]; exact ⟨ih1, ih2⟩
  case enil => intro e; trivial
  case econs => intro e b b' v vs _ _ _ ih1 ih2; rw [PlainElems]; exact ⟨ih1, ih2⟩

/-! ### Parts -/

theorem plain_member {B : Held} {ms : List Member} {fs : List GoFieldVal} {vs : List (Option AsnVal)} (h : MeansMembers l B ms fs vs) (hp : PlainFields fs) :
    ∀ m x, (m, some x) ∈ ms.zip vs → ∃ v, Means l B m.type v x ∧ Plain v := by
  induction ms generalizing fs vs with
  | nil => intro m x hm; simp at hm
  | cons m0 ms ih =>
    intro m x hm
    cases h with
    | present _ _ n tag v fs a vs _ h1 h2 =>
      rw [PlainFields] at hp
      rw [List.zip_cons_cons, List.mem_cons] at hm
      rcases hm with hm | hm
      · cases hm; exact ⟨v, h1, hp.1⟩
      · exact ih h2 hp.2 m x hm
    | absent _ _ n tag v fs vs _ _ h2 =>
      rw [PlainFields] at hp
      rw [List.zip_cons_cons, List.mem_cons] at hm
      rcases hm with hm | hm
      · cases hm
      · exact ih h2 hp.2 m x hm

theorem plain_element {B : Held} {t : MTy} {l' : List GoVal} {vs : List AsnVal} (h : MeansElems l B t l' vs) (hp : PlainElems l') :
    ∀ x ∈ vs, ∃ v, Means l B t v x ∧ Plain v := by
  induction vs generalizing l' with
  | nil => intro x hx; cases hx
  | cons a vs ih =>
    intro x hx
    cases h with
    | cons _ v l' _ _ h1 h2 =>
      rw [PlainElems] at hp
      rw [List.mem_cons] at hx
      rcases hx with rfl | hx
      · exact ⟨v, h1, hp.1⟩
      · exact ih h2 hp.2 x hx

theorem plain_boxed {v : GoVal} (h : Plain v.boxed) : Plain v := by
  cases v <;> simp_all [GoVal.boxed, Plain, AnyHeld]

/-- The parts of what a Go value stands for have Go values. -/
theorem plain_seen {B : Held} {t t' : MTy} {x y : AsnVal} {v : GoVal} (hs : Seen l t x t' y) : SeenNamed l t x → Means l B t v x → Plain v →
    ∃ v', Means l B t' v' y ∧ Plain v' := by
  induction hs generalizing v with
  | here => exact fun _ h1 h2 => ⟨v, h1, h2⟩
  | ref a t t' x y ha _ ih =>
    intro hn hm hp
    cases hm with
    | time _ h => exact absurd ha (h t)
    | ref _ t1 _ _ h1 h2 =>
      cases assigned_unique ha h1
      exact ih (seen_named_inside hn fun _ _ => .ref _ _ _ _ _ ha) h2 hp
  | constrained t t' c x y _ ih =>
    intro hn hm hp
    cases hm with
    | constrained _ _ _ _ h => exact ih (seen_named_inside hn fun _ _ => .constrained _ _ _ _ _) h hp
  | tagged g t t' k b x y _ ih =>
    intro hn hm hp
    cases hm with
    | tagged _ _ _ _ _ _ h => exact ih (seen_named_inside hn fun _ _ => .tagged _ _ _ _ _ _ _) h hp
  | choice alts e n t t' x y hst hmem _ ih =>
    intro hn hm hp
    have hn' : SeenNamed l t x := seen_named_inside hn fun _ _ => .choice _ _ _ _ _ _ _ hst hmem
    cases hm with
    | choice _ t1 _ _ _ _ h =>
      simp only [List.mem_singleton, NamedType.mk.injEq, true_and] at hmem
      subst hmem
      exact ih hn' h hp
    | alternative _ _ _ t1 v _ _ _ _ h1 _ hw h =>
      cases hn _ _ _ (.here _ _) hst n t t1 hmem h1
      exact ih hn' h (plain_boxed (hw ▸ hp))
    | raw _ _ _ _ _ _ _ _ h => exact absurd h hst
  | sequence a b vs m t' x y hmem _ ih =>
    intro hn hm hp
    cases hm with
    | sequence _ _ fs _ h =>
      rw [Plain] at hp
      obtain ⟨v, h1, h2⟩ := plain_member h hp m x hmem
      exact ih (seen_named_inside hn fun _ _ => .sequence _ _ _ _ _ _ _ hmem) h1 h2
  | set a b vs m t' x y hmem _ ih =>
    intro hn hm hp
    cases hm with
    | set _ _ fs _ h =>
      rw [Plain] at hp
      obtain ⟨v, h1, h2⟩ := plain_member h hp m x hmem
      exact ih (seen_named_inside hn fun _ _ => .set _ _ _ _ _ _ _ hmem) h1 h2
  | sequenceOf t t' vs x y hmem _ ih =>
    intro hn hm hp
    cases hm with
    | sequenceOf _ _ _ l' _ h =>
      rw [Plain] at hp
      obtain ⟨v, h1, h2⟩ := plain_element h hp x hmem
      exact ih (seen_named_inside hn fun _ _ => .sequenceOf _ _ _ _ _ hmem) h1 h2
  | setOf t t' vs x y hmem _ ih =>
    intro hn hm hp
    cases hm with
    | setOf _ _ _ l' _ h =>
      rw [Plain] at hp
      obtain ⟨v, h1, h2⟩ := plain_element h hp x hmem
      exact ih (seen_named_inside hn fun _ _ => .setOf _ _ _ _ _ hmem) h1 h2

theorem seen_trans {t t' t'' : MTy} {x y z : AsnVal} (h : Seen l t x t' y) (h' : Seen l t' y t'' z) : Seen l t x t'' z := by
  induction h with
  | here => exact h'
  | ref _ _ _ _ _ ha _ ih => exact .ref _ _ _ _ _ ha (ih h')
  | constrained _ _ _ _ _ _ ih => exact .constrained _ _ _ _ _ (ih h')
  | tagged _ _ _ _ _ _ _ _ ih => exact .tagged _ _ _ _ _ _ _ (ih h')
  | choice _ _ _ _ _ _ _ h1 h2 _ ih => exact .choice _ _ _ _ _ _ _ h1 h2 (ih h')
  | sequence _ _ _ _ _ _ _ hm _ ih => exact .sequence _ _ _ _ _ _ _ hm (ih h')
  | set _ _ _ _ _ _ _ hm _ ih => exact .set _ _ _ _ _ _ _ hm (ih h')
  | sequenceOf _ _ _ _ _ hm _ ih => exact .sequenceOf _ _ _ _ _ hm (ih h')
  | setOf _ _ _ _ _ hm _ ih => exact .setOf _ _ _ _ _ hm (ih h')

/-! ### Alternatives -/

/-- If what stands for a value of a type is one that can be read into an interface, the type is given back. -/
theorem held_back (cx : Ctx u l d r f strict op s) {t : MTy} {v : GoVal} {x : AsnVal} (h : Means l (held strict u l d r f) t v x) :
    ∀ pos e w, pos ≠ .component → EncOk strict op l d r s pos t → GoTypeOf u l d r t e → TypedAt l f pos t e v → v.boxed = .iface w → AnyHeld w →
      GivenBack l r t x := by
  refine Means.rec (motive_1 := fun t v x _ => ∀ pos e w, pos ≠ .component → EncOk strict op l d r s pos t → GoTypeOf u l d r t e → TypedAt l f pos t e v → v.boxed = .iface w →
      AnyHeld w → GivenBack l r t x) (motive_2 := fun _ _ _ _ => True) (motive_3 := fun _ _ _ _ => True)
    ?boolean ?integer ?bigInteger ?enumerated ?octetString ?bitString ?oid ?string ?time ?ref ?constrained ?tagged ?choice ?alternative ?raw ?sequence ?set ?sequenceOf ?setOf
    ?mnil ?mpresent ?mabsent ?enil ?econs h
  case integer =>
    intro nums n pos e w _ _ hg hty _ _
    have hty' := typedAt_not hty (.inr (by intro hm; cases hm))
    cases hg with
    | int64 _ hr => exact .integer _ _ hr
    | bigInt _ hr => cases hty'
  case octetString => intros; exact .octetString _
  case bitString => intros; exact .bitString _ _
  case oid => intros; exact .objectIdentifier _
  case string =>
    intro k tag ok enc q _ _ pos e w hpos hok _ _ _ _
    rw [EncOk] at hok
    rcases hok with rfl | h
    · exact .string _
    · exact absurd h.1 hpos
  case time =>
    intro τ hna _ pos e w hpos hok _ _ _ _
    rw [EncOk] at hok
    rcases hok with h | h
    · obtain ⟨t, h1, -⟩ := cx.closed _ h
      exact absurd h1 (hna t)
    · exact absurd h.1 hpos
  case ref =>
    intro a t v x ha _ ih pos e w hpos hok hg hty hw hh
    rw [EncOk] at hok
    have hty' := typedAt_not hty (.inr (not_marks (.done _ (by simp) (by simp)) (by simp) (by simp) (by simp) (by simp)))
    rcases hok with h | ⟨h, -⟩
    · obtain ⟨t', e', h1, h2, h3⟩ := typed_ref cx h hg hty'
      cases assigned_unique ha h1
      obtain ⟨t', h4, h5⟩ := cx.closed a h
      cases assigned_unique ha h4
      exact .ref _ _ _ ha (ih .assignment e' w (by decide) h5 h2 h3 hw hh)
    · exact absurd h hpos
  case constrained =>
    intro t c v x _ ih pos e w hpos hok hg hty hw hh
    cases hg with
    | constrained _ _ _ hg =>
      exact .constrained _ _ _ (ih pos e w hpos (by simpa [EncOk] using hok) hg
        ⟨fun h => hty.1 ⟨h.1, .constrained _ _ h.2⟩, fun h => hty.2 fun h' => h ⟨h'.1, by cases h'.2 with | constrained _ _ h => exact h⟩⟩ hw hh)
  case tagged => intro g t k b v x _ _ pos e w _ hok; simp [EncOk] at hok
  case choice =>
    intro n t ext v x hna _ ih pos e w hpos hok hg hty hw hh
    have hok' : EncOk strict op l d r s .element t := only_ok hok hna
    have hnm : ¬ MarksSet l (.choice [.mk n t] ext) := by
      intro hm
      cases hm with
      | choice _ _ _ _ hm => exact ok_not_marks hm hok'
    cases hg with
    | rawChoice _ _ h => exact absurd h (some_tagged hna)
    | onlyChoice _ _ _ _ _ hg => exact .only _ _ _ _ hna (ih .element e w (by decide) hok' hg (typedAt_of (typedAt_not hty (.inr hnm)) (.inl (by decide))) hw hh)
    | choice _ _ _ h => simp at h
  case alternative =>
    intro alts ext n t v v' x hns hl hm hB hv _ ih pos e w hpos hok hg hty hw hh
    replace hok := choice_ok hok hns
    obtain ⟨e', h1, h2⟩ := hB
    subst hv
    refine .several _ _ _ _ hns hl fun t' ht' => ?_
    cases (alts_several hok hl).2.1 _ _ _ hm ht'
    refine ih .element e' w (by decide) (alts_mem hok hm) h1 (typedAt_of h2 (.inl (by decide))) ?_ hh
    rw [← hw]
    cases v <;> rfl
  all_goals intros; first | trivial | (rename_i hw hh; simp only [GoVal.boxed, GoVal.iface.injEq] at hw; subst hw; exact hh.elim)

/-- What is given back is so whatever stands for the same. -/
theorem same_back {t : MTy} {x x' : AsnVal} (h : GivenBack l r t x') (hn : SeenNamed l t x) (hs : Same l t x x') : GivenBack l r t x := by
  induction h generalizing x with
  | integer nums _ hr => exact .integer _ _ hr
  | octetString => exact .octetString _
  | bitString => exact .bitString _ _
  | objectIdentifier => exact .objectIdentifier _
  | string => exact .string _
  | ref a t _ ha _ ih => exact .ref _ _ _ ha (ih (seen_named_inside hn fun _ _ => .ref _ _ _ _ _ ha) (same_ref ha hs))
  | constrained t c _ h ih =>
    cases hs with
    | refl => exact .constrained _ _ _ h
    | constrained _ _ _ _ hs => exact .constrained _ _ _ (ih (seen_named_inside hn fun _ _ => .constrained _ _ _ _ _) hs)
  | only n t e x' hna h ih =>
    have hst := some_tagged (n := n) hna
    cases hs with
    | refl => exact .only _ _ _ _ hna h
    | choice _ _ _ t1 x _ hm hs =>
      simp only [List.mem_singleton, NamedType.mk.injEq, true_and] at hm
      subst hm
      exact .only _ _ _ _ hna (ih (seen_named_inside hn fun _ _ => .choice _ _ _ _ _ _ _ hst (by simp)) hs)
  | several alts e n x' hst hl h ih =>
    cases hs with
    | refl => exact .several _ _ _ _ hst hl h
    | choice _ _ _ t1 x _ hm hs =>
      refine .several _ _ _ _ hst hl fun t ht => ?_
      cases hn _ _ _ (.here _ _) hst n t t1 ht hm
      exact ih _ ht (seen_named_inside hn fun _ _ => .choice _ _ _ _ _ _ _ hst ht) hs

/-- What is read stands only for values whose interfaces hold what is given back. -/
theorem back_assigned (cx : Ctx u l d r f strict op s) {a : Str} (ha : s a) {v : GoVal} {x x' : AsnVal} (hp : Plain v)
    (hshape : ∀ t' y, Seen l (.ref a) x' t' y → ∀ alts e, t' = .choice alts e → ∃ pos, EncOk strict op l d r s pos t')
    (hm : Means l (held strict u l d r f) (.ref a) v x') (hc : SeenNamed l (.ref a) x) (hc' : SeenNamed l (.ref a) x') (hs : Same l (.ref a) x x') :
    InterfacesBack l r (.ref a) x := by
  intro alts e n y hy hst hl t ht
  obtain ⟨y', h1, h2⟩ := same_seen hy hc hs
  have hx : ∃ z, y' = .choice n z ∧ ∃ t1, NamedType.mk n t1 ∈ alts ∧ Same l t1 y z := by
    cases h2 with
    | refl => exact ⟨y, rfl, t, ht, .refl _ _⟩
    | choice _ _ _ t1 _ z h3 h4 => exact ⟨z, rfl, t1, h3, h4⟩
  obtain ⟨z, rfl, t1, h3, h4⟩ := hx
  cases hc _ _ _ hy hst n t t1 ht h3
  obtain ⟨v', h5, h6⟩ := plain_seen h1 hc' hm hp
  obtain ⟨pos, hok⟩ := hshape _ _ h1 _ _ rfl
  replace hok := choice_ok hok hst
  refine same_back ?_ (seen_named_inside hc fun _ _ hz => seen_trans hy (.choice _ _ _ _ _ _ _ hst ht hz)) h4
  cases h5 with
  | choice => exact absurd rfl hl
  | raw _ _ _ _ _ _ _ _ h => exact absurd h hst
  | alternative _ _ _ t2 w _ _ _ _ h7 hB hw h8 =>
    cases (alts_several hok hl).2.1 _ _ _ ht h7
    obtain ⟨e', h9, h10⟩ := hB
    subst hw
    have hbox : ∃ w', w.boxed = .iface w' := by
      have := means_not_nil h8
      cases w <;> simp_all [GoVal.boxed]
    obtain ⟨w', hw'⟩ := hbox
    rw [hw', Plain] at h6
    exact held_back cx h8 .element e' w' (by decide) (alts_mem hok ht) h9 (typedAt_of h10 (.inl (by decide))) hw' h6

end Asn1go.Deco
