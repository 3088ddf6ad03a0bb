import Verif.Proofs.Decoding.Alternative

/-! Go values for abstract values, by induction on encodings. -/

namespace Asn1go.Deco

open Asn1go Spec CG Enco

variable {u : Casing} {l : List MAssignment} {d : Int} {r : Str} {f : GoFile} {strict : Bool} {op : Open} {s : Str → Prop}

/-- There is a Go value for an abstract value. -/
def WriteStmt (u : Casing) (l : List MAssignment) (d : Int) (r : Str) (f : GoFile) (strict : Bool) (op : Open) (s : Str → Prop) (t : MTy) (x : AsnVal) : Prop :=
  Shape strict op l d r s t → OptionalsZero l t → OptionalsTold l r t x → Fits l r t x → ∀ e, GoTypeOf u l d r t e →
    ∃ v, Typed f e v ∧ Means l (held strict u l d r f) t v x ∧ (v.isZero = true → Blank l r t x)

/-- What is needed of components. -/
structure WriteOk (strict : Bool) (op : Open) (l : List MAssignment) (d : Int) (r : Str) (s : Str → Prop) (y : Member) : Prop where
  ok : EncOkTagged strict op l d r s y.type
  default : DefaultOk strict l r y
  zero : OptionalsZero l y.type
  optional : y.optional = true → HasZero l y.type

def WriteMembers (u : Casing) (l : List MAssignment) (d : Int) (r : Str) (f : GoFile) (strict : Bool) (op : Open) (s : Str → Prop) (xs : List Member)
    (vs : List (Option AsnVal)) : Prop :=
  (∀ y ∈ xs, WriteOk strict op l d r s y) →
    (∀ m y, (m, some y) ∈ xs.zip vs → OptionalsTold l r m.type y ∧ (m.optional = true → ¬ Blank l r m.type y)) →
    (∀ m y, (m, some y) ∈ xs.zip vs → Fits l r m.type y) →
    ∀ fs, FieldsOf u l d r xs fs → ∃ ws, TypedFields f fs ws ∧ MeansMembers l (held strict u l d r f) xs ws vs ∧ (fieldsZero ws = true → BlankMembers l r xs vs)

def WriteElems (u : Casing) (l : List MAssignment) (d : Int) (r : Str) (f : GoFile) (strict : Bool) (op : Open) (s : Str → Prop) (t : MTy)
    (vs : List AsnVal) : Prop :=
  Shape strict op l d r s t → OptionalsZero l t → (∀ v ∈ vs, OptionalsTold l r t v) → (∀ v ∈ vs, Fits l r t v) → ∀ e, GoTypeOf u l d r t e →
    ∃ ws, TypedElems f e ws ∧ MeansElems l (held strict u l d r f) t ws vs

theorem zero_inside {t t' : MTy} (h : OptionalsZero l t) (hi : ∀ t'', Inside l t' t'' → Inside l t t'') : OptionalsZero l t' :=
  fun a b hab => h a b (hab.imp (hi _) (hi _))

theorem told_inside {t t' : MTy} {x x' : AsnVal} (h : OptionalsTold l r t x) (hi : ∀ t'' y, Seen l t' x' t'' y → Seen l t x t'' y) :
    OptionalsTold l r t' x' :=
  fun a b vs hab => h a b vs (hab.imp (hi _ _) (hi _ _))

/-- The components of SEQUENCE and SET types. -/
theorem write_members {a b : List MComponent} (ha : EncOkMembers strict op l d r s a) (hb : EncOkMembers strict op l d r s b)
    (ho : ∀ x ∈ members (a ++ b), OptionalsZero l x.type ∧ (x.optional = true → HasZero l x.type)) :
    ∀ x ∈ members (a ++ b), WriteOk strict op l d r s x := fun x hx =>
  ⟨(members_ok ha hb x hx).1, (members_ok ha hb x hx).2, (ho x hx).1, (ho x hx).2⟩

/-- The zero value. -/
theorem write_zero (cx : Ctx u l d r f strict op s) (hpre : ∀ n ∈ predeclared, n ∉ declared f.decls) {y : Member} (hy : WriteOk strict op l d r s y)
    (h : HasZero l y.type) {e : GoExpr} {tg : Option Str} (hg : GoTypeOf u l d r y.type e) (htag : FieldTag l d y tg) :
    ∃ v, Typed f e v ∧ v.isZero = true := by
  have hp := htag.meaning (tags_goInt hy.ok) (default_goInt hy.default)
  obtain ⟨n, k, z, h1, h3, h4, -⟩ := (zero_aux cx hpre h).2 e _ _ _ hy.ok hg hp
  exact ⟨z, kindVal_typed h1 (zero_kind h3), h4⟩

/-- Default values. -/
theorem write_default (cx : Ctx u l d r f strict op s) (hpre : ∀ n ∈ predeclared, n ∉ declared f.decls) {t : MTy} {dv : Value DefinedValue} {x : AsnVal}
    (h : DefaultIs l t dv x) (hf : FitsHere r x) {e : GoExpr} (hg : GoTypeOf u l d r t e) : ∃ v, Typed f e v ∧ Means l (held strict u l d r f) t v x ∧ (v.isZero = true → Blank l r t x) := by
  have key : ∀ n nums, TypeIs l t (.integer nums) → FitsHere r (.integer n) → ∃ v, Typed f e v ∧ Means l (held strict u l d r f) t v (.integer n) ∧ (v.isZero = true → Blank l r t (.integer n)) := by
    intro n nums ht hf
    refine write_typeIs cx ht (P := fun v => Means l (held strict u l d r f) t v (.integer n) ∧ (v.isZero = true → Blank l r t (.integer n)))
      (fun v m hv => ⟨means_named hv.1 m, fun hz => hv.2 (by rwa [named_zero] at hz)⟩) (fun e he => ?_) hg
    cases he with
    | int64 _ hr => exact ⟨_, .int64 n (hpre _ (by decide)) (hf.integer n rfl hr), means_of_typeIs ht (.integer _ _), fun hz => by
        have : n = 0 := by simpa [GoVal.isZero] using hz
        subst this
        exact blank_typeIs ht (.integer _ hr)⟩
    | bigInt => exact ⟨_, .big (some n), means_of_typeIs ht (.bigInteger _ _), fun hz => by simp [GoVal.isZero] at hz⟩
  cases h with
  | number n nums ht => exact key n nums ht hf
  | named y n nums ht _ => exact key n nums ht hf
  | defined y n nums ht _ => exact key n nums ht hf
  | boolean b ht =>
    refine write_typeIs cx ht (P := fun v => Means l (held strict u l d r f) t v (.boolean b) ∧ (v.isZero = true → Blank l r t (.boolean b)))
      (fun v m hv => ⟨means_named hv.1 m, fun hz => hv.2 (by rwa [named_zero] at hz)⟩) (fun e he => ?_) hg
    cases he
    exact ⟨_, .bool b (hpre _ (by decide)), means_of_typeIs ht (.boolean _), fun hz => by
      have : b = false := by simpa [GoVal.isZero] using hz
      subst this
      exact blank_typeIs ht .boolean⟩

theorem write_aux (cx : Ctx u l d r f strict op s) (hlim : op.Limited) (hpre : ∀ n ∈ predeclared, n ∉ declared f.decls)
    (hopt : ∀ a t, .type a t ∈ l → OptionalsZero l t) {t : MTy} {x : AsnVal} {tag : AsnTag} {k : Bool} {c : Bytes}
    (h : Enc strict l d t x tag k c) : WriteStmt u l d r f strict op s t x := by
  refine Enc.rec (motive_1 := fun t x _ _ _ _ => WriteStmt u l d r f strict op s t x)
    (motive_2 := fun xs vs _ _ => WriteMembers u l d r f strict op s xs vs) (motive_3 := fun t vs _ _ => WriteElems u l d r f strict op s t vs)
    ?boolean ?integer ?enumerated ?octetString ?bitString ?oid ?string ?time ?ref ?constrained ?explicit ?implicit ?choice ?sequence ?set ?sequenceOf ?setOf
    ?mnil ?mpresent ?mabsent ?mdefault ?enil ?econs h
  case boolean =>
    intro b _ _ _ _ e hg
    cases hg
    refine ⟨_, .bool b (hpre _ (by decide)), .boolean _, fun hz => ?_⟩
    have : b = false := by simpa [GoVal.isZero] using hz
    subst this
    exact .boolean
  case integer =>
    intro nums n c _ _ _ _ hf e hg
    cases hg with
    | int64 _ hr =>
      refine ⟨_, .int64 n (hpre _ (by decide)) ((hf _ _ (.here _ _)).integer n rfl hr), .integer _ _, fun hz => ?_⟩
      have : n = 0 := by simpa [GoVal.isZero] using hz
      subst this
      exact .integer _ hr
    | bigInt => exact ⟨_, .big (some n), .bigInteger _ _, fun hz => by simp [GoVal.isZero] at hz⟩
  case enumerated =>
    intro a b n c _ _ _ _ hf e hg
    cases hg
    refine ⟨_, .enumerated n ((hf _ _ (.here _ _)).enumerated n rfl), .enumerated _ _ _, fun hz => ?_⟩
    have : n = 0 := by simpa [GoVal.isZero] using hz
    subst this
    exact .enumerated _ _
  case octetString =>
    intro b _ _ _ _ e hg
    cases hg
    exact ⟨_, .bytes (some b) (hpre _ (by decide)), .octetString (some b), fun hz => by simp [GoVal.isZero] at hz⟩
  case bitString =>
    intro nb b c hb hnb _ _ _ hf e hg
    obtain ⟨k, q, -, h1, h2⟩ := hb
    cases hg
    exact ⟨_, .bits (some q) b.length ((hf _ _ (.here _ _)).bits b rfl), .bitString nb (some q) b k h1 h2 hnb, fun hz => by simp [GoVal.isZero] at hz⟩
  case oid =>
    intro o c ho _ _ _ hf e hg
    cases hg
    cases ho with
    | mk a b q _ h1 h2 _ =>
      refine ⟨_, .oid (some ((a :: b :: q).map Int.ofNat)) ?_, .objectIdentifier a b q h1 h2 ((hf _ _ (.here _ _)).arcs a b q rfl), fun hz => by simp [GoVal.isZero] at hz⟩
      intro x hx n hn
      cases hx
      obtain ⟨m, hm, rfl⟩ := List.mem_map.1 hn
      exact (hf _ _ (.here _ _)).oid _ rfl m hm
  case string =>
    intro k tag ok enc q hk hq _ _ _ _ e hg
    cases hg
    refine ⟨_, .string q (hpre _ (by decide)), .string _ _ _ _ _ hk hq, fun hz => ?_⟩
    have : q = [] := by simpa [GoVal.isZero] using hz
    subst this
    exact .string _
  case time =>
    intro t h1 h2 _ _ _ _ e hg
    have hres : Resolves l (c! "GeneralizedTime") (c! "GeneralizedTime") _ := .generalizedTime _ (.unassigned _ h1)
    have he : e = .ident (c! "time.Time") := by
      generalize hq : c! "GeneralizedTime" = q at hg hres
      cases hg with
      | time => rfl
      | bits _ b s1 nb h3 h4 h5 => obtain ⟨rfl, rfl⟩ := resolves_unique h3 hres; subst hq; exact absurd (.inl rfl) h4
      | ref _ b s1 h3 h4 h5 => obtain ⟨rfl, rfl⟩ := resolves_unique h3 hres; subst hq; exact absurd (.inl rfl) h4
    subst he
    refine ⟨_, .time _, .time t h1 h2, fun hz => ?_⟩
    obtain ⟨y, mo, dy, hh, mi, se⟩ := t
    have h3 : (⟨y, mo, dy, hh, mi, se, 0⟩ : GoTime) = zeroTime := by simpa [GoVal.isZero] using hz
    simp only [zeroTime, GoTime.mk.injEq] at h3
    obtain ⟨h4, rfl, rfl, rfl, rfl, rfl, -⟩ := h3
    norm_cast at h4
    subst h4
    exact .time h1
  case ref =>
    intro a t x tag k c ha _ ih hs _ htd hf e hg
    have hsh : Shape strict op l d r s t := by
      have : s a ∨ TimeRef l a := by
        rcases hs with ⟨pos, hs⟩ | hs
        · rw [EncOk] at hs; exact hs.imp id And.right
        · rw [EncOkTagged, EncOk] at hs
          · exact hs.imp id And.right
          all_goals simp
      rcases this with h | h
      · obtain ⟨t', h1, h2⟩ := cx.closed a h
        cases assigned_unique ha h1
        exact .inl ⟨_, h2⟩
      · exact .inl ⟨_, shape_timeRef h ha⟩
    obtain ⟨v, h1, h2, h3⟩ := write_ref cx ha (P := fun v => Means l (held strict u l d r f) (.ref a) v x ∧ (v.isZero = true → Blank l r (.ref a) x))
      (fun v n hv => ⟨means_named hv.1 n, fun hz => hv.2 (by rwa [named_zero] at hz)⟩)
      (fun e he => by
        obtain ⟨v, h1, h2, h3⟩ := ih hsh (hopt a t (assigned_mem ha)) (told_inside htd fun _ _ hp => .ref _ _ _ _ _ ha hp) (fits_part hf fun _ _ hp => .ref _ _ _ _ _ ha hp) e he
        exact ⟨v, h1, .ref _ _ _ _ ha h2, fun hz => .ref _ _ _ ha (h3 hz)⟩) (.inl hg)
    exact ⟨v, h1, h2, h3⟩
  case constrained =>
    intro t y x tag k c _ ih hs ho htd hf e hg
    cases hg with
    | constrained _ _ _ hg =>
      have hsh : Shape strict op l d r s t := by
        rcases hs with ⟨pos, hs⟩ | hs
        · rw [EncOk] at hs; exact .inl ⟨pos, hs⟩
        · rw [EncOkTagged] at hs; exact .inr hs
      obtain ⟨v, h1, h2, h3⟩ := ih hsh (zero_inside ho fun t'' hi => .constrained _ _ _ hi) (told_inside htd fun _ _ hp => .constrained _ _ _ _ _ hp) (fits_part hf fun _ _ hp => .constrained _ _ _ _ _ hp) e hg
      exact ⟨v, h1, .constrained _ _ _ _ h2, fun hz => .constrained _ _ _ (h3 hz)⟩
  case explicit =>
    intro cls n t kind b x tag k c e' _ _ _ ih hs ho htd hf e hg
    cases hg with
    | tagged _ _ _ _ _ hg =>
      have hsh : Shape strict op l d r s t := by
        rcases hs with ⟨pos, hs⟩ | hs
        · simp [EncOk] at hs
        · rw [EncOkTagged] at hs; exact .inl ⟨_, hs.2.2.2.2⟩
      obtain ⟨v, h1, h2, h3⟩ := ih hsh (zero_inside ho fun t'' hi => .tagged _ _ _ _ _ hi) (told_inside htd fun _ _ hp => .tagged _ _ _ _ _ _ _ hp) (fits_part hf fun _ _ hp => .tagged _ _ _ _ _ _ _ hp) e hg
      exact ⟨v, h1, .tagged _ _ _ _ _ _ h2, fun hz => .tagged _ _ _ _ _ (h3 hz)⟩
  case implicit =>
    intro cls n t kind b x tag k c _ _ _ ih hs ho htd hf e hg
    cases hg with
    | tagged _ _ _ _ _ hg =>
      have hsh : Shape strict op l d r s t := by
        rcases hs with ⟨pos, hs⟩ | hs
        · simp [EncOk] at hs
        · rw [EncOkTagged] at hs; exact .inl ⟨_, hs.2.2.2.2⟩
      obtain ⟨v, h1, h2, h3⟩ := ih hsh (zero_inside ho fun t'' hi => .tagged _ _ _ _ _ hi) (told_inside htd fun _ _ hp => .tagged _ _ _ _ _ _ _ hp) (fits_part hf fun _ _ hp => .tagged _ _ _ _ _ _ _ hp) e hg
      exact ⟨v, h1, .tagged _ _ _ _ _ _ h2, fun hz => .tagged _ _ _ _ _ (h3 hz)⟩
  case choice =>
    intro alts ext n t x tag k c hmem henc ih hs ho htd hf e hg
    obtain ⟨pos, hs⟩ : ∃ pos, EncOk strict op l d r s pos (.choice alts ext) := by
      rcases hs with hs | hs
      · exact hs
      · exact ⟨_, tagged_core (.done _ (by simp) (by simp)) hs⟩
    by_cases hns : SomeTagged l alts
    · have he : e = .ident (c! "asn1.RawValue") := by
        cases hg with
        | rawChoice _ _ h => rfl
        | onlyChoice _ _ _ _ h _ => exact absurd hns (some_tagged h)
        | choice _ _ h _ => exact absurd hns h
      subst he
      have henc' : Enc strict l d (.choice alts ext) (.choice n x) tag k c := .choice _ _ _ _ _ _ _ _ hmem henc
      have hnum := raw_number cx hlim hs hns henc'
      have hcls := enc_class henc'
      refine ⟨.raw tag.cls tag.number k (some c) none, .raw _ _ _ _ _ ?_ ?_, .raw _ _ _ _ _ _ _ _ hns henc' (by simp), fun hz => by simp [GoVal.isZero] at hz⟩
      · unfold GoInt; omega
      · unfold GoInt; omega
    have hsh : EncOkOnly strict op l d r s alts := choice_ok hs hns
    by_cases hl : alts.length ≠ 1
    · obtain ⟨-, -, hr, hnst⟩ := alts_several hsh hl
      have hok := alts_mem hsh hmem
      replace hnst := hnst n t hmem
      obtain ⟨e', he'⟩ := type_exists cx hr t hok hnst
      obtain ⟨v, h1, h2, -⟩ := ih (.inl ⟨_, hok⟩) (fun a b h => (h.elim (hnst a b).1 (hnst a b).2).elim)
        (told_inside htd fun _ _ hp => .choice _ _ _ _ _ _ _ hns hmem hp) (fits_part hf fun _ _ hp => .choice _ _ _ _ _ _ _ hns hmem hp) e' he'
      have he : e = .iface := by
        cases hg with
        | rawChoice _ _ h => exact absurd h (alts_untagged cx hsh)
        | onlyChoice _ _ _ _ _ _ => exact absurd rfl hl
        | choice _ _ _ _ => rfl
      subst he
      exact ⟨_, boxed_typed h1 h2, .alternative _ _ _ _ _ _ _ hns hl hmem ⟨_, he', h1⟩ rfl h2,
        fun hz => by rw [boxed_not_zero (means_not_nil h2)] at hz; cases hz⟩
    replace hsh : ∃ n' t', alts = [.mk n' t'] ∧ EncOk strict op l d r s .element t' := by
      clear hs ho htd hg hmem hns hf ih
      match alts, hsh, hl with
      | [.mk n' t'], h, _ => rw [EncOkOnly] at h; exact ⟨n', t', rfl, h⟩
      | [], h, _ => simp [EncOkOnly] at h
      | .mk _ _ :: .mk _ _ :: _, _, h => simp at h
    obtain ⟨n', t', rfl, hsh⟩ := hsh
    simp only [List.mem_singleton, NamedType.mk.injEq] at hmem
    obtain ⟨rfl, rfl⟩ := hmem
    have hnt : ¬ AltTagged l t := fun h => ok_not_tagged cx h (pos := .element) (by simp) hsh
    have hg' : GoTypeOf u l d r t e := by
      cases hg with
      | rawChoice _ _ h =>
        obtain ⟨n', t', h1, h2⟩ := h
        simp only [List.mem_singleton, NamedType.mk.injEq] at h1
        rw [h1.2] at h2
        exact absurd h2 hnt
      | onlyChoice _ _ _ _ _ h => exact h
      | choice _ _ _ h => simp at h
    obtain ⟨v, h1, h2, h3⟩ := ih (.inl ⟨_, hsh⟩) (zero_inside ho fun t'' hi => .choice _ _ _ _ hnt hi)
      (told_inside htd fun _ _ hp => .choice _ _ _ _ _ _ _ hns (by simp) hp) (fits_part hf fun _ _ hp => .choice _ _ _ _ _ _ _ hns (by simp) hp) e hg'
    exact ⟨v, h1, .choice _ _ _ _ _ hnt h2, fun hz => .choice _ _ _ _ hnt (h3 hz)⟩
  case sequence =>
    intro a b vs es _ ih hs ho htd hf e hg
    cases hg with
    | sequence _ _ fs hg =>
      have hsh : EncOkMembers strict op l d r s a ∧ EncOkMembers strict op l d r s b := by
        rcases hs with ⟨pos, hs⟩ | hs
        · rw [EncOk] at hs; exact hs
        · rw [EncOkTagged, EncOk] at hs
          · exact hs
          all_goals simp
      obtain ⟨ws, h1, h2, h3⟩ := ih (write_members hsh.1 hsh.2 fun x hx =>
          ⟨zero_inside ho fun t'' hi => .sequence _ _ x _ hx hi, ho a b (.inl (.here _)) x hx⟩)
        (fun m y hm => ⟨told_inside htd fun _ _ hp => .sequence _ _ _ _ _ _ _ hm hp, htd a b vs (.inl (.here _ _)) m y hm⟩)
        (fun m y hm => fits_part hf fun _ _ hp => .sequence _ _ _ _ _ _ _ hm hp) fs hg
      exact ⟨_, .struct _ _ h1, .sequence _ _ _ _ h2, fun hz => .sequence _ _ _ (h3 (by simpa only [GoVal.isZero] using hz))⟩
  case set =>
    intro a b vs es es' _ _ _ ih hs ho htd hf e hg
    cases hg with
    | set _ _ fs hg =>
      have hsh : EncOkMembers strict op l d r s a ∧ EncOkMembers strict op l d r s b := by
        rcases hs with ⟨pos, hs⟩ | hs
        · rw [EncOk] at hs; exact ⟨hs.2.1, hs.2.2.1⟩
        · rw [EncOkTagged, EncOk] at hs
          · exact ⟨hs.2.1, hs.2.2.1⟩
          all_goals simp
      obtain ⟨ws, h1, h2, h3⟩ := ih (write_members hsh.1 hsh.2 fun x hx =>
          ⟨zero_inside ho fun t'' hi => .set _ _ x _ hx hi, ho a b (.inr (.here _)) x hx⟩)
        (fun m y hm => ⟨told_inside htd fun _ _ hp => .set _ _ _ _ _ _ _ hm hp, htd a b vs (.inr (.here _ _)) m y hm⟩)
        (fun m y hm => fits_part hf fun _ _ hp => .set _ _ _ _ _ _ _ hm hp) fs hg
      exact ⟨_, .struct _ _ h1, .set _ _ _ _ h2, fun hz => .set _ _ _ (h3 (by simpa only [GoVal.isZero] using hz))⟩
  case sequenceOf =>
    intro t vs es _ ih hs ho htd hf e hg
    cases hg with
    | sequenceOf _ e' hg =>
      have hsh : EncOk strict op l d r s .element t := by
        rcases hs with ⟨pos, hs⟩ | hs
        · rw [EncOk] at hs; exact hs
        · rw [EncOkTagged, EncOk] at hs
          · exact hs
          all_goals simp
      obtain ⟨ws, h1, h2⟩ := ih (.inl ⟨_, hsh⟩) (zero_inside ho fun t'' hi => .sequenceOf _ _ hi)
        (fun v hv => told_inside htd fun _ _ hp => .sequenceOf _ _ _ _ _ hv hp)
        (fun v hv => fits_part hf fun _ _ hp => .sequenceOf _ _ _ _ _ hv hp) e' hg
      exact ⟨_, .slice _ false ws (not_byte cx.named hg) (by simp) h1, .sequenceOf _ _ _ _ _ h2, fun hz => by simp [GoVal.isZero] at hz⟩
  case setOf =>
    intro t vs es es' _ _ _ ih hs ho htd hf e hg
    cases hg with
    | setOf _ e' hg =>
      have hsh : EncOk strict op l d r s .element t := by
        rcases hs with ⟨pos, hs⟩ | hs
        · rw [EncOk] at hs; exact hs.2
        · rw [EncOkTagged, EncOk] at hs
          · exact hs.2
          all_goals simp
      obtain ⟨ws, h1, h2⟩ := ih (.inl ⟨_, hsh⟩) (zero_inside ho fun t'' hi => .setOf _ _ hi)
        (fun v hv => told_inside htd fun _ _ hp => .setOf _ _ _ _ _ hv hp)
        (fun v hv => fits_part hf fun _ _ hp => .setOf _ _ _ _ _ hv hp) e' hg
      exact ⟨_, .slice _ false ws (not_byte cx.named hg) (by simp) h1, .setOf _ _ _ _ _ h2, fun hz => by simp [GoVal.isZero] at hz⟩
  case mnil =>
    intro _ _ _ fs hg
    cases hg
    exact ⟨[], .nil, .nil, fun _ => .nil⟩
  case mpresent =>
    intro y x tag k c e xs vs es _ _ _ _ ih1 ih2 hm htd hf fs hg
    cases hg with
    | cons _ _ e tag fs hg htag hfs =>
      have hy := hm y (by simp)
      obtain ⟨h2, h3⟩ := htd y x (by simp)
      obtain ⟨v, h4, h5, h6⟩ := ih1 (.inr hy.ok) hy.zero h2 (hf y x (by simp)) e hg
      obtain ⟨ws, h7, h8, h9⟩ := ih2 (fun z hz => hm z (by simp [hz])) (fun m z hz => htd m z (by simp [hz])) (fun m z hz => hf m z (by simp [hz])) fs hfs
      refine ⟨_, .cons _ _ _ _ _ _ h4 h7, .present _ _ _ _ _ _ _ _ (fun ho => ?_) h5 h8, fun hz => ?_⟩
      · cases hz : v.isZero with
        | false => rfl
        | true => exact absurd (h6 hz) (h3 ho)
      · rw [fieldsZero, Bool.and_eq_true] at hz
        exact .present _ _ _ _ (h6 hz.1) (h9 hz.2)
  case mabsent =>
    intro y xs vs es ho _ ih2 hm htd hf fs hg
    cases hg with
    | cons _ _ e tag fs hg htag hfs =>
      have hy := hm y (by simp)
      obtain ⟨v, h4, h5⟩ := write_zero cx hpre hy (hy.optional ho) hg htag
      obtain ⟨ws, h7, h8, h9⟩ := ih2 (fun z hz => hm z (by simp [hz])) (fun m z hz => htd m z (by simp [hz])) (fun m z hz => hf m z (by simp [hz])) fs hfs
      refine ⟨_, .cons _ _ _ _ _ _ h4 h7, .absent _ _ _ _ _ _ _ ho h5 h8, fun hz => ?_⟩
      rw [fieldsZero, Bool.and_eq_true] at hz
      exact .absent _ _ _ (h9 hz.2)
  case mdefault =>
    intro y x dv xs vs es hdv hdi _ ih2 hm htd hf fs hg
    cases hg with
    | cons _ _ e tag fs hg htag hfs =>
      have hy := hm y (by simp)
      obtain ⟨v, h4, h5, h6⟩ := write_default cx hpre hdi (hf y x (by simp) _ _ (.here _ _)) hg
      obtain ⟨ws, h7, h8, h9⟩ := ih2 (fun z hz => hm z (by simp [hz])) (fun m z hz => htd m z (by simp [hz])) (fun m z hz => hf m z (by simp [hz])) fs hfs
      refine ⟨_, .cons _ _ _ _ _ _ h4 h7, .present _ _ _ _ _ _ _ _ (fun ho => ?_) h5 h8, fun hz => ?_⟩
      · rw [(hy.default dv hdv).1] at ho; cases ho
      · rw [fieldsZero, Bool.and_eq_true] at hz
        exact .present _ _ _ _ (h6 hz.1) (h9 hz.2)
  case enil =>
    intro t _ _ _ _ e _
    exact ⟨[], .nil _, .nil _⟩
  case econs =>
    intro t x tag k c e xs es _ _ _ ih1 ih2 hs ho htd hf e' hg
    obtain ⟨v, h1, h2, -⟩ := ih1 hs ho (htd x (by simp)) (hf x (by simp)) e' hg
    obtain ⟨ws, h3, h4⟩ := ih2 hs ho (fun z hz => htd z (by simp [hz])) (fun z hz => hf z (by simp [hz])) e' hg
    exact ⟨_, .cons _ _ _ h1 h3, .cons _ _ _ _ _ h2 h4⟩

/-- Every value with an encoding has a Go value. -/
theorem write_assigned (cx : Ctx u l d r f strict op s) (hlim : op.Limited) (hpre : ∀ n ∈ predeclared, n ∉ declared f.decls)
    (hopt : ∀ a t, .type a t ∈ l → OptionalsZero l t) {a : Str} (ha : s a) {x : AsnVal} {tag : AsnTag} {k : Bool} {c : Bytes}
    (h : Enc strict l d (.ref a) x tag k c) (htd : OptionalsTold l r (.ref a) x) (hf : Fits l r (.ref a) x) : ∃ v, Typed f (.ident (goifyName u a)) v ∧ Means l (held strict u l d r f) (.ref a) v x := by
  obtain ⟨t, h1, h2⟩ := cx.closed a ha
  have ht : Enc strict l d t x tag k c := by
    cases h with
    | time _ h3 _ => exact absurd h1 (h3 t)
    | ref _ t' _ _ _ _ h3 h4 => cases assigned_unique h1 h3; exact h4
  refine write_ref cx h1 (P := fun v => Means l (held strict u l d r f) (.ref a) v x) (fun v n hv => means_named hv n) (fun e he => ?_) (.inr rfl)
  obtain ⟨v, h3, h4, -⟩ := write_aux cx hlim hpre hopt ht (.inl ⟨_, h2⟩) (hopt a t (assigned_mem h1)) (told_inside htd fun _ _ hp => .ref _ _ _ _ _ h1 hp)
    (fits_part hf fun _ _ hp => .ref _ _ _ _ _ h1 hp) e he
  exact ⟨v, h3, .ref _ _ _ _ h1 h4⟩

/-! ### OPTIONAL components with nil -/

theorem blank_of_core {t c : MTy} {x : AsnVal} (hc : Core t c) (h : Blank l r t x) : Blank l r c x := by
  induction hc with
  | tagged g t c k b _ ih => cases h with | tagged _ _ _ _ _ h => exact ih h
  | constrained t c y _ ih => cases h with | constrained _ _ _ h => exact ih h
  | done t _ _ => exact h

theorem blank_of_typeIs {t c : MTy} {x : AsnVal} (ht : TypeIs l t c) (h : Blank l r t x) : Blank l r c x := by
  induction ht with
  | core t c hc _ => exact blank_of_core hc h
  | ref t t' c a hc ha _ ih =>
    have h1 := blank_of_core hc h
    cases h1 with
    | time hn => exact absurd ha (hn _)
    | ref _ t1 _ h2 h3 => cases assigned_unique ha h2; exact ih h3

theorem nil_not_blank {t : MTy} {x : AsnVal} (h : HasNil l r t) : ¬ Blank l r t x := fun hb => by
  rcases h with h1 | ⟨_, h1⟩ | h1 | ⟨_, h1⟩ | ⟨_, h1⟩ | ⟨h0, _, h1⟩ | ⟨alts, _, h1, hs⟩
  all_goals have h2 := blank_of_typeIs h1 hb
  all_goals cases h2
  · rename_i h3
    rw [h0] at h3
    exact absurd h3 (by decide)
  · rename_i h3 _
    exact absurd hs (some_tagged h3)

theorem hasZero_of_core {t c : MTy} (hc : Core t c) (h : HasZero l c) : HasZero l t := by
  induction hc with
  | tagged g t c k b _ ih => exact .tagged _ _ _ _ (ih h)
  | constrained t c y _ ih => exact .constrained _ _ (ih h)
  | done t _ _ => exact h

theorem hasZero_of_typeIs {t c : MTy} (ht : TypeIs l t c) (h : HasZero l c) : HasZero l t := by
  induction ht with
  | core t c hc _ => exact hasZero_of_core hc h
  | ref t t' c a hc ha _ ih => exact hasZero_of_core hc (.ref _ _ ha (ih h))

theorem nil_hasZero {t : MTy} (h : HasNil l r t) : HasZero l t := by
  rcases h with h1 | ⟨_, h1⟩ | h1 | ⟨_, h1⟩ | ⟨_, h1⟩ | ⟨h0, _, h1⟩ | ⟨_, _, h1, hs⟩ <;> refine hasZero_of_typeIs h1 ?_
  · exact .octetString
  · exact .bitString _
  · exact .objectIdentifier
  · exact .sequenceOf _
  · exact .setOf _
  · exact .integer _
  · exact .raw _ _ hs

theorem nil_zero {t : MTy} (h : OptionalsNil l r t) : OptionalsZero l t := fun a b hi x hx ho => nil_hasZero (h a b hi x hx ho)

theorem nil_inside {t t' : MTy} (h : OptionalsNil l r t) (hi : ∀ t'', Inside l t' t'' → Inside l t t'') : OptionalsNil l r t' :=
  fun a b hab => h a b (hab.imp (hi _) (hi _))

/-- The types of parts are encoded as they should, and what holds for all types inside holds for them. -/
theorem shape_part (cx : Ctx u l d r f strict op s) {Q : MTy → Prop} (href : ∀ a t, .type a t ∈ l → Q t)
    (hin : ∀ t t', Q t → (∀ t'', Inside l t' t'' → Inside l t t'') → Q t') (hns : ∀ t, NoStruct l t → Q t) {t t' : MTy} {x y : AsnVal} (h : Seen l t x t' y) :
    Shape strict op l d r s t → Q t → Shape strict op l d r s t' ∧ Q t' := by
  have core : ∀ {t}, (∀ g t' k b, t ≠ .tagged g t' k b) → (∀ t' c, t ≠ .constrained t' c) → Shape strict op l d r s t → ∃ pos, EncOk strict op l d r s pos t := by
    rintro t h1 h2 (⟨pos, h⟩ | h)
    · exact ⟨pos, h⟩
    · exact ⟨_, tagged_core (.done _ h1 h2) h⟩
  have mem : ∀ {a b : List MComponent} {vs : List (Option AsnVal)} {m : Member} {x : AsnVal}, (m, some x) ∈ (members (a ++ b)).zip vs →
      EncOkMembers strict op l d r s a ∧ EncOkMembers strict op l d r s b → m ∈ members (a ++ b) ∧ Shape strict op l d r s m.type := fun hm hs =>
    ⟨(List.of_mem_zip hm).1, .inr (members_ok hs.1 hs.2 _ (List.of_mem_zip hm).1).1⟩
  induction h with
  | here => exact fun h1 h2 => ⟨h1, h2⟩
  | ref a t t' x y ha _ ih =>
    intro hs _
    obtain ⟨pos, hs⟩ := core (by simp) (by simp) hs
    rw [EncOk] at hs
    refine ih ?_ (href a t (assigned_mem ha))
    rcases hs with h | h
    · obtain ⟨t', h1, h2⟩ := cx.closed a h
      cases assigned_unique ha h1
      exact .inl ⟨_, h2⟩
    · exact .inl ⟨_, shape_timeRef h.2 ha⟩
  | constrained t t' c x y _ ih =>
    intro hs ho
    refine ih ?_ (hin _ _ ho fun _ hi => .constrained _ _ _ hi)
    rcases hs with ⟨pos, hs⟩ | hs
    · rw [EncOk] at hs; exact .inl ⟨pos, hs⟩
    · rw [EncOkTagged] at hs; exact .inr hs
  | tagged g t t' k b x y _ ih =>
    intro hs ho
    refine ih ?_ (hin _ _ ho fun _ hi => .tagged _ _ _ _ _ hi)
    rcases hs with ⟨pos, hs⟩ | hs
    · simp [EncOk] at hs
    · rw [EncOkTagged] at hs; exact .inl ⟨_, hs.2.2.2.2⟩
  | choice alts e n t t' x y hst hm _ ih =>
    intro hs ho
    obtain ⟨pos, hs⟩ := core (by simp) (by simp) hs
    replace hs := choice_ok hs hst
    by_cases hl : alts.length ≠ 1
    · exact ih (.inl ⟨_, alts_mem hs hm⟩) (hns _ ((alts_several hs hl).2.2.2 n t hm))
    have : alts = [.mk n t] ∧ EncOk strict op l d r s .element t := by
      clear ho hst
      match alts, hs, hm, hl with
      | [.mk n' t'], h, hm, _ => rw [EncOkOnly] at h; simp at hm; obtain ⟨rfl, rfl⟩ := hm; exact ⟨rfl, h⟩
      | [], h, _, _ => simp [EncOkOnly] at h
      | .mk _ _ :: .mk _ _ :: _, _, _, h => simp at h
    obtain ⟨rfl, h1⟩ := this
    exact ih (.inl ⟨_, h1⟩) (hin _ _ ho fun _ hi => .choice _ _ _ _ (fun h => ok_not_tagged cx h (pos := .element) (by simp) h1) hi)
  | sequence a b vs m t' x y hm _ ih =>
    intro hs ho
    obtain ⟨pos, hs⟩ := core (by simp) (by simp) hs
    rw [EncOk] at hs
    obtain ⟨h1, h2⟩ := mem hm hs
    exact ih h2 (hin _ _ ho fun _ hi => .sequence _ _ m _ h1 hi)
  | set a b vs m t' x y hm _ ih =>
    intro hs ho
    obtain ⟨pos, hs⟩ := core (by simp) (by simp) hs
    rw [EncOk] at hs
    obtain ⟨h1, h2⟩ := mem hm ⟨hs.2.1, hs.2.2.1⟩
    exact ih h2 (hin _ _ ho fun _ hi => .set _ _ m _ h1 hi)
  | sequenceOf t t' vs x y _ _ ih =>
    intro hs ho
    obtain ⟨pos, hs⟩ := core (by simp) (by simp) hs
    rw [EncOk] at hs
    exact ih (.inl ⟨_, hs⟩) (hin _ _ ho fun _ hi => .sequenceOf _ _ hi)
  | setOf t t' vs x y _ _ ih =>
    intro hs ho
    obtain ⟨pos, hs⟩ := core (by simp) (by simp) hs
    rw [EncOk] at hs
    exact ih (.inl ⟨_, hs.2⟩) (hin _ _ ho fun _ hi => .setOf _ _ hi)

/-- If the Go types of OPTIONAL components have nil, no value that is present is left out. -/
theorem nil_told (cx : Ctx u l d r f strict op s) (hopt : ∀ a t, .type a t ∈ l → OptionalsNil l r t) {a : Str} (ha : s a) (x : AsnVal) :
    OptionalsTold l r (.ref a) x := by
  obtain ⟨t, h1, h2⟩ := cx.closed a ha
  have hn : OptionalsNil l r (.ref a) := by rintro a' b' (h | h) <;> cases h
  intro a' b' vs hp m y hm ho
  refine nil_not_blank ?_
  rcases hp with hp | hp
  · exact (shape_part cx hopt (fun _ _ => nil_inside) (fun t hns a b h => (h.elim (hns a b).1 (hns a b).2).elim) hp (.inl ⟨.assignment, by rw [EncOk]; exact .inl ha⟩) hn).2 _ _ (.inl (.here _)) m (List.of_mem_zip hm).1 ho
  · exact (shape_part cx hopt (fun _ _ => nil_inside) (fun t hns a b h => (h.elim (hns a b).1 (hns a b).2).elim) hp (.inl ⟨.assignment, by rw [EncOk]; exact .inl ha⟩) hn).2 _ _ (.inr (.here _)) m (List.of_mem_zip hm).1 ho

/-- The alternatives of CHOICE types have names of their own, but for those held in raw values. -/
theorem shape_choices (cx : Ctx u l d r f strict op s) {t : MTy} (hs : Shape strict op l d r s t) {x y : AsnVal} {alts : List MNamed}
    {e : List MTy} (h : Seen l t x (.choice alts e) y) (hst : ¬ SomeTagged l alts) : DifferentNames alts := by
  have h1 := (shape_part cx (Q := fun _ => True) (fun _ _ _ => trivial) (fun _ _ _ _ => trivial) (fun _ _ => trivial) h hs trivial).1
  have h2 : EncOkOnly strict op l d r s alts := by
    rcases h1 with ⟨pos, h1⟩ | h1
    · exact choice_ok h1 hst
    · exact choice_ok (tagged_core (.done _ (by simp) (by simp)) h1) hst
  by_cases hl : alts.length = 1
  · obtain ⟨y, rfl⟩ := List.length_eq_one_iff.1 hl
    intro n t t' m1 m2
    rw [List.mem_singleton] at m1 m2
    cases m1.trans m2.symm
    rfl
  · exact (alts_several h2 hl).2.1

end Asn1go.Deco
