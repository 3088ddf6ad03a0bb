import Verif.Proofs.Decoding.Read2

/-! What encoding/asn1 reads from encodings of values: SEQUENCE, SET, SEQUENCE OF, SET OF, all types. -/

namespace Asn1go.Deco

open Asn1go Spec CG Enco

variable {u : Casing} {l : List MAssignment} {d : Int} {r : Str} {f : GoFile} {op : Open} {s : Str → Prop}

/-! ### Components -/

theorem member_ask {t : MTy} {a b : List MComponent} {vs : List (Option AsnVal)} (hok1 : EncOkMembers true op l d r s a) (hok2 : EncOkMembers true op l d r s b)
    (hmn : MembersNamed u l t) (hask : Ask l d r op t (.record vs)) (hin : Inside l t (.sequence a b) ∨ Inside l t (.set a b))
    (hsub : ∀ y ∈ members (a ++ b), ∀ t', Inside l y.type t' → Inside l t t') : (∀ y ∈ members (a ++ b), AskMember u l d r op s y) ∧ Told l d (members (a ++ b)) := by
  have hr := hask.readable.components a b hin
  refine ⟨fun y hy => ?_, hr.told⟩
  obtain ⟨h1, h2⟩ := members_ok hok1 hok2 y hy
  exact ⟨h1, h2, fun a' b' h => hmn a' b' (h.imp (hsub y hy _) (hsub y hy _)), (hmn a b hin).2 y hy,
    fun a' b' h => hask.zero a' b' (h.imp (hsub y hy _) (hsub y hy _)), fun ho => hask.zero a b hin y hy ho,
    ⟨fun a' b' h => hask.readable.components a' b' (h.imp (hsub y hy _) (hsub y hy _)), fun t' h => hask.readable.elements t' (h.imp (hsub y hy _) (hsub y hy _))⟩,
    hr.numbers y hy, hr.classes y hy⟩

theorem value_ask {t : MTy} {a b : List MComponent} {vs : List (Option AsnVal)} (hask : Ask l d r op t (.record vs))
    (hpart : Seen l t (.record vs) (.sequence a b) (.record vs) ∨ Seen l t (.record vs) (.set a b) (.record vs))
    (hsub : ∀ y v, (y, some v) ∈ (members (a ++ b)).zip vs → ∀ t' w, Seen l y.type v t' w → Seen l t (.record vs) t' w) :
    ∀ y v, (y, some v) ∈ (members (a ++ b)).zip vs → AskValue l r op y.type v ∧ OptionalsTold l r y.type v ∧ (y.optional = true → ¬ Blank l r y.type v) := by
  intro y v hz
  exact ⟨askValue_part hask.fits (hsub y v hz), fun a' b' vs' h => hask.told a' b' vs' (h.imp (hsub y v hz _ _) (hsub y v hz _ _)),
    fun ho => hask.told a b vs hpart y v hz ho⟩

theorem read_sequence (a b : List MComponent) (vs : List (Option AsnVal)) (es : List (AsnTag × Bytes)) (ih : MembersRead u l d r f op s (members (a ++ b)) vs es) :
    CoreRead u l d r f op s (.sequence a b) (.record vs) ⟨0, 16⟩ true (es.flatMap Prod.snd) := by
  intro pos e p hok hmn hg hp hask hl
  rw [EncOk] at hok
  cases hg with
  | sequence _ _ fs hf =>
    obtain ⟨h1, h2⟩ := member_ask hok.1 hok.2 hmn hask (.inl (.here _)) fun y hy t' h => .sequence _ _ _ _ hy h
    obtain ⟨ws, vs', h3, h4, h5, h6⟩ := ih fs h1 h2 (value_ask hask (.inl (.here _ _)) fun y v hz t' w h => .sequence _ _ _ _ _ _ _ hz h) hf hl
    refine ⟨[], _, .struct _, fun _ => trivial, fun m _ => ⟨_, _, .body 16 rfl (by simp) rfl (wire_ok_other ?_ (by decide) (by decide)) (.struct _ _ _ _ _ _ h3), .sequence _ _ _ _ h4,
      .sequence _ _ _ _ h5, fun hz => .sequence _ _ _ (h6 (by simpa [GoVal.isZero] using hz))⟩⟩
    exact params_set hp (by simp [core_iff, removeWrapperTypes]) (by simp [core_iff, removeWrapperTypes])

theorem lt_asymm_perm : ∀ {es es' : List (AsnTag × Bytes)}, es'.Perm es → es.Pairwise (fun x y => x.1.lt y.1) → es'.Pairwise (fun x y => x.1.lt y.1) → es' = es
  | [], _, h, _, _ => h.eq_nil
  | x :: es, [], h, _, _ => by simp at h
  | x :: es, y :: es', h, h1, h2 => by
    rw [List.pairwise_cons] at h1 h2
    have : y = x := by
      by_contra hne
      have hy : y ∈ es := by
        have := h.subset (List.mem_cons_self (a := y) (l := es'))
        exact (List.mem_cons.1 this).resolve_left hne
      have hx : x ∈ es' := by
        have := h.symm.subset (List.mem_cons_self (a := x) (l := es))
        exact (List.mem_cons.1 this).resolve_left (fun h => hne h.symm)
      have h3 := h1.1 y hy
      have h4 := h2.1 x hx
      unfold AsnTag.lt at h3 h4
      omega
    subst this
    rw [lt_asymm_perm (List.Perm.cons_inv h) h1.2 h2.2]

theorem read_set (a b : List MComponent) (vs : List (Option AsnVal)) (es es' : List (AsnTag × Bytes)) (henc : EncMembers true l d (members (a ++ b)) vs es)
    (hperm : es'.Perm es) (hord : es'.Pairwise fun x y => x.1.lt y.1) (ih : MembersRead u l d r f op s (members (a ++ b)) vs es) :
    CoreRead u l d r f op s (.set a b) (.record vs) ⟨0, 17⟩ true (es'.flatMap Prod.snd) := by
  intro pos e p hok hmn hg hp hask hl
  rw [EncOk] at hok
  obtain ⟨rfl, hok1, hok2, ho⟩ := hok
  have := lt_asymm_perm hperm (members_order henc (ho rfl)) hord
  subst this
  have hset : p.set = true := (hp.1 rfl).set.2 (.inl ⟨a, b, by simp [core_iff, removeWrapperTypes]⟩)
  cases hg with
  | set _ _ fs hf =>
    obtain ⟨h1, h2⟩ := member_ask hok1 hok2 hmn hask (.inr (.here _)) fun y hy t' h => .set _ _ _ _ hy h
    obtain ⟨ws, vs', h3, h4, h5, h6⟩ := ih fs h1 h2 (value_ask hask (.inr (.here _ _)) fun y v hz t' w h => .set _ _ _ _ _ _ _ hz h) hf hl
    exact ⟨[], _, .struct _, fun _ => trivial, fun m _ => ⟨_, _, .body 16 rfl (by simp) rfl (wire_ok_set hset) (.struct _ _ _ _ _ _ h3), .set _ _ _ _ h4,
      .set _ _ _ _ h5, fun hz => .set _ _ _ (h6 (by simpa [GoVal.isZero] using hz))⟩⟩

/-! ### Elements -/

theorem elems_read_nil (t : MTy) : ElemsRead u l d r f op s t [] [] := fun _ _ _ _ _ _ => ⟨[], rfl, by simp, .nil _⟩

theorem elems_read_cons (t : MTy) (x : AsnVal) (tag : AsnTag) (comp : Bool)
    (c en : Bytes) (xs : List AsnVal) (es : List Bytes) (hen : Encoding tag comp c en)
    (ih1 : CoreRead u l d r f op s t x tag comp c) (ih2 : ElemsRead u l d r f op s t xs es) : ElemsRead u l d r f op s t (x :: xs) (en :: es) := by
  intro e hok hmn hg hask hl
  have hlen := encoding_length hen
  have hl1 := hl en (by simp)
  obtain ⟨n, k, h3, -, h4⟩ := ih1 .element e {} hok hmn hg (neutral_at neutral_empty (by decide)) (hask x (by simp)) (by omega)
  obtain ⟨v, x', h5, h8, h9, -⟩ := h4 n (nameAt_self (.inl (by decide)))
  obtain ⟨qs, h10, h11, h12⟩ := ih2 e hok hmn hg (fun y hy => hask y (by simp [hy])) fun e he => hl e (by simp [he])
  refine ⟨(en, v, x') :: qs, by simp [h10], ?_, .cons _ _ _ _ _ h9 h12⟩
  rintro q hq
  rcases List.mem_cons.1 hq with rfl | hq
  · exact ⟨encoding_ne hen, fun rest => h5.plain h3 rfl rfl hen (by omega) rest, h8⟩
  · exact h11 q hq

theorem reads_elems {e : GoExpr} {t : MTy} : ∀ {qs : List (Bytes × GoVal × AsnVal)},
    (∀ q ∈ qs, q.1 ≠ [] ∧ (∀ rest, Decodes f u e {} (q.1 ++ rest) q.2.1 rest) ∧ Means l (held true u l d r f) t q.2.1 q.2.2) →
    ReadsElems f u e (qs.map Prod.fst).flatten (qs.map fun q => q.2.1) ∧ MeansElems l (held true u l d r f) t (qs.map fun q => q.2.1) (qs.map fun q => q.2.2)
  | [], _ => ⟨.nil _, .nil _⟩
  | q :: qs, h => by
    obtain ⟨h1, h2, h3⟩ := h q (by simp)
    obtain ⟨h4, h5⟩ := reads_elems (qs := qs) fun q hq => h q (by simp [hq])
    exact ⟨.cons _ _ _ _ _ (by simp [h1]) (h2 _) h4, .cons _ _ _ _ _ h3 h5⟩

theorem perm_map {α β : Type} (g : α → β) : ∀ {es es' : List β}, es'.Perm es → ∀ qs : List α, qs.map g = es → ∃ qs' : List α, qs'.Perm qs ∧ qs'.map g = es' := by
  intro es es' h
  induction h with
  | nil => intro qs hq; exact ⟨[], by simpa using hq, rfl⟩
  | cons x _ ih =>
    intro qs hq
    cases qs with
    | nil => simp at hq
    | cons q qs =>
      simp only [List.map_cons, List.cons.injEq] at hq
      obtain ⟨qs', h1, h2⟩ := ih qs hq.2
      exact ⟨q :: qs', h1.cons q, by simp [hq.1, h2]⟩
  | swap x y _ =>
    intro qs hq
    match qs, hq with
    | q :: q' :: qs, hq =>
      simp only [List.map_cons, List.cons.injEq] at hq
      exact ⟨q' :: q :: qs, .swap _ _ _, by simp [hq]⟩
  | trans _ _ ih1 ih2 =>
    intro qs hq
    obtain ⟨qs1, h1, h2⟩ := ih2 qs hq
    obtain ⟨qs2, h3, h4⟩ := ih1 qs1 h2
    exact ⟨qs2, h3.trans h1, h4⟩

theorem flatten_le {es : List Bytes} {e : Bytes} (h : e ∈ es) : e.length ≤ es.flatten.length := by
  induction es with
  | nil => cases h
  | cons x es ih =>
    rw [List.flatten_cons, List.length_append]
    rcases List.mem_cons.1 h with rfl | h
    · omega
    · have := ih h; omega

theorem read_sequenceOf (cx : Ctx u l d r f true op s) (hpre : ∀ n ∈ predeclared, n ∉ declared f.decls) (t : MTy) (vs : List AsnVal) (es : List Bytes) (ih : ElemsRead u l d r f op s t vs es) :
    CoreRead u l d r f op s (.sequenceOf t) (.list vs) ⟨0, 16⟩ true es.flatten := by
  intro pos e p hok hmn hg hp hask hl
  have hok' : EncOk true op l d r s .element t := by simpa [EncOk] using hok
  have hnm : ¬ MarksSet l (.sequenceOf t) := by
    intro hm
    cases hm with
    | sequenceOf _ hm => exact ok_not_marks hm hok'
  cases hg with
  | sequenceOf _ e hg =>
    obtain ⟨_, _, hk1, hk2⟩ := known_element cx hpre (hask.readable.elements _ (.inl (.here _))) hok' hg
    refine ⟨[], _, .slice _ (not_byte cx.named hg), fun h => absurd h hnm, fun m hm => ?_⟩
    rcases hm.2 fun h => hnm h.2 with rfl | ⟨fs, h⟩
    · have hset : p.set = false := params_set hp (by simp [core_iff, removeWrapperTypes]) (by simp [core_iff, removeWrapperTypes])
      obtain ⟨qs, h1, h2, h3⟩ := ih e hok' (fun a b h => hmn a b (h.imp (.sequenceOf _ _) (.sequenceOf _ _))) hg
        (fun x hx => ask_inside hask (fun _ h => .sequenceOf _ _ h) fun _ _ h => .sequenceOf _ _ _ _ _ hx h)
        (fun en hen => by have := flatten_le hen; omega)
      obtain ⟨h4, h5⟩ := reads_elems h2
      rw [h1] at h4
      exact ⟨_, _, .body 16 rfl (by simp) (by simp [kindTag]) (wire_ok_other hset (by decide) (by decide)) (.slice _ _ _ _ _ _ _ hk1 hk2 h4), .sequenceOf _ _ _ _ _ h5, .sequenceOf _ _ _ h3,
        fun hz => by simp [GoVal.isZero] at hz⟩
    · cases h

theorem read_setOf (cx : Ctx u l d r f true op s) (hpre : ∀ n ∈ predeclared, n ∉ declared f.decls) (t : MTy) (vs : List AsnVal) (es es' : List Bytes) (hperm : es'.Perm es) (ih : ElemsRead u l d r f op s t vs es) :
    CoreRead u l d r f op s (.setOf t) (.list vs) ⟨0, 17⟩ true es'.flatten := by
  intro pos e p hok hmn hg hp hask hl
  rw [EncOk] at hok
  cases hg with
  | setOf _ e hg =>
    obtain ⟨_, _, hk1, hk2⟩ := known_element cx hpre (hask.readable.elements _ (.inr (.here _))) hok.2 hg
    refine ⟨[], _, .slice _ (not_byte cx.named hg), fun _ => trivial, fun m hm => ?_⟩
    obtain ⟨qs, h1, h2, h3⟩ := ih e hok.2 (fun a b h => hmn a b (h.imp (.setOf _ _) (.setOf _ _))) hg
      (fun x hx => ask_inside hask (fun _ h => .setOf _ _ h) fun _ _ h => .setOf _ _ _ _ _ hx h)
      (fun en hen => by have := flatten_le (hperm.mem_iff.2 hen); omega)
    obtain ⟨qs', h6, h7⟩ := perm_map Prod.fst hperm qs h1
    obtain ⟨h4, h5⟩ := reads_elems (qs := qs') fun q hq => h2 q (h6.mem_iff.1 hq)
    rw [h7] at h4
    have hsame : Same l (.setOf t) (.list vs) (.list (qs'.map fun q => q.2.2)) := .setOf _ _ _ _ h3 (h6.map _)
    cases pos with
    | element => exact absurd rfl hok.1
    | assignment =>
      obtain ⟨q, rfl⟩ := hm.1 ⟨rfl, .setOf _⟩
      exact ⟨_, _, .body 17 rfl (by simp) (by simp [kindTag]) (wire_ok_other (hp.2 (by decide)).set (by decide) (by decide)) (.slice _ _ _ _ _ _ _ hk1 hk2 h4), .setOf _ _ _ _ _ h5, hsame,
        fun hz => by simp [GoVal.isZero] at hz⟩
    | component =>
      rcases hm.2 (by simp) with rfl | ⟨fs, h⟩
      · have hset : p.set = true := (hp.1 rfl).set.2 (.inr ⟨t, by simp [core_iff, removeWrapperTypes]⟩)
        exact ⟨_, _, .body 16 rfl (by simp) (by simp [kindTag]) (wire_ok_set hset) (.slice _ _ _ _ _ _ _ hk1 hk2 h4), .setOf _ _ _ _ _ h5, hsame, fun hz => by simp [GoVal.isZero] at hz⟩
      · cases h

/-! ### All types -/

theorem read_aux (cx : Ctx u l d r f true op s) (hlim : op.Limited) (hpre : ∀ n ∈ predeclared, n ∉ declared f.decls) (hzero : ∀ a t, .type a t ∈ l → OptionalsZero l t)
    (hread : ∀ a t, .type a t ∈ l → Readable l d t) {t : MTy} {x : AsnVal} {tag : AsnTag} {k : Bool} {c : Bytes} (h : Enc true l d t x tag k c) :
    CoreRead u l d r f op s t x tag k c ∧ FieldRead u l d r f op s t x tag k c := by
  have both : ∀ {t x tag k c}, (∀ g t' k b, t ≠ .tagged g t' k b) → (∀ t' c, t ≠ .constrained t' c) → Enc true l d t x tag k c → CoreRead u l d r f op s t x tag k c →
      CoreRead u l d r f op s t x tag k c ∧ FieldRead u l d r f op s t x tag k c := fun h1 h2 _ h => ⟨h, field_of_core_read h1 h2 h⟩
  refine Enc.rec (motive_1 := fun t x tag k c _ => CoreRead u l d r f op s t x tag k c ∧ FieldRead u l d r f op s t x tag k c)
    (motive_2 := fun xs vs es _ => MembersRead u l d r f op s xs vs es) (motive_3 := fun t vs es _ => ElemsRead u l d r f op s t vs es)
    ?boolean ?integer ?enumerated ?octetString ?bitString ?oid ?string ?time ?ref ?constrained ?explicit ?implicit ?choice ?sequence ?set ?sequenceOf ?setOf
    ?mnil ?mpresent ?mabsent ?mdefault ?enil ?econs h
  case boolean => intro b; exact both (by simp) (by simp) (.boolean b) (read_boolean hpre b)
  case integer => intro nums n c hc; exact both (by simp) (by simp) (.integer nums n c hc) (read_integer hpre nums n c hc)
  case enumerated => intro a b n c hc; exact both (by simp) (by simp) (.enumerated a b n c hc) (read_enumerated a b n c hc)
  case octetString => intro b; exact both (by simp) (by simp) (.octetString b) (read_octetString hpre b)
  case bitString => intro nb b c h1 h2; exact both (by simp) (by simp) (.bitString nb b c h1 h2) (read_bitString nb b c h1 h2)
  case oid => intro o c h1; exact both (by simp) (by simp) (.objectIdentifier o c h1) (read_objectIdentifier o c h1)
  case string => intro k tag ok enc q h1 h2; exact both (by simp) (by simp) (.string k tag ok enc q h1 h2) (read_stringType hpre k tag ok enc q h1 h2)
  case time => intro t h1 h2; exact both (by simp) (by simp) (.time t h1 h2) (read_generalizedTime cx t h1 h2)
  case ref => intro a t x tag k c h1 h2 ih; exact both (by simp) (by simp) (.ref a t x tag k c h1 h2) (read_ref cx hzero hread a t x tag k c h1 ih.1)
  case constrained => intro t y x tag k c _ ih; exact ⟨read_constrained t y x tag k c ih.1, field_read_constrained t y x tag k c ih.2⟩
  case explicit =>
    intro cls n t kind b x tag k c e h1 h2 h3 ih
    exact ⟨fun pos e p hok => by simp [EncOk] at hok, field_read_explicit cls n t kind b x tag k c e h1 h3 ih.1⟩
  case implicit =>
    intro cls n t kind b x tag k c h1 h2 h3 ih
    exact ⟨fun pos e p hok => by simp [EncOk] at hok, field_read_implicit cls n t kind b x tag k c h1 ih.1⟩
  case choice => intro alts ext n t x tag k c h1 h2 ih; exact both (by simp) (by simp) (.choice alts ext n t x tag k c h1 h2) (read_choice cx hpre hlim alts ext n t x tag k c h1 h2 ih.1)
  case sequence => intro a b vs es h1 ih; exact both (by simp) (by simp) (.sequence a b vs es h1) (read_sequence a b vs es ih)
  case set => intro a b vs es es' h1 h2 h3 ih; exact both (by simp) (by simp) (.set a b vs es es' h1 h2 h3) (read_set a b vs es es' h1 h2 (h3 rfl) ih)
  case sequenceOf => intro t vs es h1 ih; exact both (by simp) (by simp) (.sequenceOf t vs es h1) (read_sequenceOf cx hpre t vs es ih)
  case setOf => intro t vs es es' h1 h2 h3 ih; exact both (by simp) (by simp) (.setOf t vs es es' h1 h2 h3) (read_setOf cx hpre t vs es es' h2 ih)
  case mnil => exact members_read_nil
  case mpresent => intro y v tag k c e xs vs es _ h2 _ _ ih1 ih2; exact members_read_present y v tag k c e xs vs es h2 ih1.2 ih2
  case mabsent => intro y xs vs es h1 h2 ih; exact members_read_absent cx hlim hpre y xs vs es h1 h2 ih
  case mdefault => intro y v dv xs vs es h1 h2 h3 ih; exact members_read_default cx hlim hpre y v dv xs vs es h1 h2 h3 ih
  case enil => exact elems_read_nil
  case econs => intro t v tag k c e vs es h1 h2 _ ih1 ih2; exact elems_read_cons t v tag k c e vs es h2 ih1.1 ih2

/-- Encodings of values of assigned types are read. -/
theorem read_assigned (cx : Ctx u l d r f true op s) (hlim : op.Limited) (hpre : ∀ n ∈ predeclared, n ∉ declared f.decls) (hzero : ∀ a t, .type a t ∈ l → OptionalsZero l t)
    (hread : ∀ a t, .type a t ∈ l → Readable l d t) {a : Str} (ha : s a) {x : AsnVal} {en : Bytes} (h : Encodes true l d (.ref a) x en)
    (hf : ReadFits l r (.ref a) x) (hif : op.iface = true → InterfacesRead l r (.ref a) x) (htold : OptionalsTold l r (.ref a) x) (hl : en.length < 2147483648) (rest : Bytes) :
    ∃ v x', Unmarshals f u (.ident (goifyName u a)) (en ++ rest) v rest ∧ Means l (held true u l d r f) (.ref a) v x' ∧ Same l (.ref a) x x' := by
  obtain ⟨t, h1, h2⟩ := cx.closed a ha
  obtain ⟨tag, k, c, henc, hen⟩ := h
  have hlen := encoding_length hen
  have ht : Enc true l d t x tag k c := by
    cases henc with
    | time _ h3 _ => exact absurd h1 (h3 t)
    | ref _ t' _ _ _ _ h3 h4 => cases assigned_unique h1 h3; exact h4
  obtain ⟨n, k', h4, h5⟩ := under_ref cx h1 (pos := .assignment) (.inl rfl)
    (P := fun m k' => ∃ v x', BodyRead u l f op t {} m k' tag k c v ∧ Means l (held true u l d r f) t v x' ∧ Same l t x x')
    (by
      rintro n m fs ⟨v, x', h5, h8, h9⟩
      exact ⟨v, x', h5.renamed, h8, h9⟩)
    (fun e he => by
      obtain ⟨n, k', h4, h5, h6⟩ := (read_aux cx hlim hpre hzero hread ht).1 .assignment e {} h2 (cx.members _ _ (assigned_mem h1)) he (neutral_at neutral_empty (by decide))
        ⟨askValue_part ⟨hf, hif⟩ fun _ _ => .ref _ _ _ _ _ h1, hzero _ _ (assigned_mem h1), fun a' b vs hab => htold a' b vs (hab.imp (.ref _ _ _ _ _ h1) (.ref _ _ _ _ _ h1)), hread _ _ (assigned_mem h1)⟩ (by omega)
      refine ⟨n, k', h4, h5, fun m hm => ?_⟩
      obtain ⟨v, x', h5, h8, h9, -⟩ := h6 m hm
      exact ⟨v, x', h5, h8, h9⟩) (.inr rfl)
  obtain ⟨v, x', h6, h9, h10⟩ := h5 n (.inl rfl)
  exact ⟨v, x', h6.plain h4 rfl rfl hen (by omega) rest, .ref _ _ _ _ h1 h9, .ref _ _ _ _ h1 h10⟩

end Asn1go.Deco
