import Verif.Proofs.Decoding.Kinds2
import Verif.Proofs.Decoding.Canon

/-! What encoding/asn1 reads from encodings of values, type by type. -/

namespace Asn1go.Deco

open Asn1go Spec CG Enco

variable {u : Casing} {l : List MAssignment} {d : Int} {r : Str} {f : GoFile} {op : Open} {s : Str → Prop}

/-! ### Tags of encodings -/

/-- What DER allows, BER allows. -/
theorem enc_loose {strict : Bool} {t : MTy} {x : AsnVal} {tag : AsnTag} {k : Bool} {c : Bytes} (h : Enc strict l d t x tag k c) : Enc false l d t x tag k c := by
  refine Enc.rec (motive_1 := fun t x tag k c _ => Enc false l d t x tag k c)
    (motive_2 := fun xs vs es _ => EncMembers false l d xs vs es) (motive_3 := fun t vs es _ => EncElems false l d t vs es)
    ?boolean ?integer ?enumerated ?octetString ?bitString ?oid ?string ?time ?ref ?constrained ?explicit ?implicit ?choice ?sequence ?set ?sequenceOf ?setOf
    ?mnil ?mpresent ?mabsent ?mdefault ?enil ?econs h
  case boolean => exact .boolean
  case integer => exact .integer
  case enumerated => exact .enumerated
  case octetString => exact .octetString
  case bitString => exact .bitString
  case oid => exact .objectIdentifier
  case string => exact .string
  case time => exact .time
  case ref => exact fun _ _ _ _ _ _ h _ ih => .ref _ _ _ _ _ _ h ih
  case constrained => exact fun _ _ _ _ _ _ _ ih => .constrained _ _ _ _ _ _ ih
  case explicit => exact fun _ _ _ _ _ _ _ _ _ _ h1 _ h2 ih => .explicit _ _ _ _ _ _ _ _ _ _ h1 ih h2
  case implicit => exact fun _ _ _ _ _ _ _ _ _ h1 h2 _ ih => .implicit _ _ _ _ _ _ _ _ _ h1 h2 ih
  case choice => exact fun _ _ _ _ _ _ _ _ h _ ih => .choice _ _ _ _ _ _ _ _ h ih
  case sequence => exact fun _ _ _ _ _ ih => .sequence _ _ _ _ ih
  case set => exact fun _ _ _ _ _ _ h _ ih => .set _ _ _ _ _ ih h (by simp)
  case sequenceOf => exact fun _ _ _ _ ih => .sequenceOf _ _ _ ih
  case setOf => exact fun _ _ _ _ _ h _ ih => .setOf _ _ _ _ ih h (by simp)
  case mnil => exact .nil
  case mpresent => exact fun _ _ _ _ _ _ _ _ _ _ h _ _ ih1 ih2 => .present _ _ _ _ _ _ _ _ _ ih1 h (by simp) ih2
  case mabsent => exact fun _ _ _ _ h _ ih => .absent _ _ _ _ h ih
  case mdefault => exact fun _ _ _ _ _ _ h1 h2 _ ih => .default _ _ _ _ _ _ h1 h2 ih
  case enil => exact .nil
  case econs => exact fun _ _ _ _ _ _ _ _ _ h _ ih1 ih2 => .cons _ _ _ _ _ _ _ _ ih1 h ih2

/-- Tag numbers in raw values. -/
theorem raw_number {strict : Bool} (cx : Ctx u l d r f strict op s) (hlim : op.Limited) {alts : List MNamed} {e : List MTy} {pos : Position}
    (h : EncOk strict op l d r s pos (.choice alts e)) (hs : SomeTagged l alts) {b : Bool} {x : AsnVal} {tag : AsnTag} {k : Bool} {c : Bytes}
    (henc : Enc b l d (.choice alts e) x tag k c) : tag.number ≤ 2147483647 := by
  rw [EncOk] at h
  rcases h with ⟨h1, -, h2⟩ | h
  · exact h2 (hlim h1) _ _ _ _ (enc_loose henc)
  · exact absurd hs (alts_untagged cx h)

/-- Encodings of types without tags have tags with small numbers. -/
theorem core_tag {strict strict' : Bool} (cx : Ctx u l d r f strict op s) (hlim : op.Limited) {t : MTy} {x : AsnVal} {tag : AsnTag}
    {k : Bool} {c : Bytes} (h : Enc strict' l d t x tag k c) : ∀ pos, EncOk strict op l d r s pos t → tag.number ≤ 2147483647 := by
  refine Enc.rec (motive_1 := fun t _ tag _ _ _ => ∀ pos, EncOk strict op l d r s pos t → tag.number ≤ 2147483647)
    (motive_2 := fun _ _ _ _ => True) (motive_3 := fun _ _ _ _ => True)
    ?boolean ?integer ?enumerated ?octetString ?bitString ?oid ?string ?time ?ref ?constrained ?explicit ?implicit ?choice ?sequence ?set ?sequenceOf ?setOf
    ?mnil ?mpresent ?mabsent ?mdefault ?enil ?econs h
  case ref =>
    intro a t x tag k c ha _ ih pos hok
    rw [EncOk] at hok
    rcases hok with h | ⟨-, h⟩
    · obtain ⟨t', h1, h2⟩ := cx.closed a h
      cases assigned_unique ha h1
      exact ih _ h2
    · exact ih _ (shape_timeRef h ha)
  case constrained =>
    intro t y x tag k c _ ih pos hok
    rw [EncOk] at hok
    exact ih _ hok
  case explicit => intro cls n t kind b x tag k c e _ _ _ _ pos hok; simp [EncOk] at hok
  case implicit => intro cls n t kind b x tag k c _ _ _ _ pos hok; simp [EncOk] at hok
  case choice =>
    intro alts ext n t x tag k c hmem henc ih pos hok
    by_cases hs : SomeTagged l alts
    · exact raw_number cx hlim hok hs (.choice _ _ _ _ _ _ _ _ hmem henc)
    · exact ih _ (alts_mem (choice_ok hok hs) hmem)
  case string =>
    intro k tag ok enc q hk _ pos _
    cases hk <;> simp
  all_goals intros; first | trivial | simp

/-- Those of components have tags that can be read. -/
theorem field_tag {strict strict' : Bool} (cx : Ctx u l d r f strict op s) (hlim : op.Limited) {t : MTy} {x : AsnVal} {tag : AsnTag}
    {k : Bool} {c : Bytes} (hok : EncOkTagged strict op l d r s t) (hn : ∀ g ∈ tagsAround d t, ∀ n, g.2.1 = .number n → n ≤ 2147483647)
    (h : Enc strict' l d t x tag k c) : tag.cls < 4 ∧ tag.number ≤ 2147483647 := by
  refine ⟨enc_class h, ?_⟩
  induction t using unconstrained.induct generalizing x tag k c with
  | case1 t y ih =>
    rw [EncOkTagged] at hok
    cases h with
    | constrained _ _ _ _ _ _ h => exact ih hok hn h
  | case2 t hnc =>
    by_cases ht : ∃ g t' k' b, t = .tagged g t' k' b
    · obtain ⟨g, t', k', b, rfl⟩ := ht
      rw [EncOkTagged] at hok
      have key : ∀ cls (n : Nat), g = ⟨cls, .number n⟩ → n ≤ 2147483647 := by
        rintro cls n rfl
        have := hn (cls, .number n, if b then k' else d) (by rw [tagsAround]; simp) n rfl
        exact_mod_cast this
      cases h with
      | explicit cls n => exact key _ _ rfl
      | implicit cls n => exact key _ _ rfl
    · rw [EncOkTagged] at hok
      · exact core_tag cx hlim h _ hok
      · intro g t' k' b he; exact ht ⟨_, _, _, _, he⟩
      · exact hnc

/-! ### Statements -/

/-- What is asked of the value. -/
structure AskValue (l : List MAssignment) (r : Str) (op : Open) (t : MTy) (x : AsnVal) : Prop extends ReadFits l r t x where
  ifaces : op.iface = true → InterfacesRead l r t x

/-- What is asked of the type and the value. -/
structure Ask (l : List MAssignment) (d : Int) (r : Str) (op : Open) (t : MTy) (x : AsnVal) : Prop where
  fits : AskValue l r op t x
  zero : OptionalsZero l t
  told : OptionalsTold l r t x
  readable : Readable l d t

/-- The value `v` is read from the contents of an element with the tag. -/
inductive BodyRead (u : Casing) (l : List MAssignment) (f : GoFile) (op : Open) (t : MTy) (p : FieldParams) (m : Str) (k : GoKind) (tag : AsnTag) (comp : Bool) (c : Bytes)
    (v : GoVal) : Prop
  | body (tag0 : Nat) : tag.cls = 0 → tag.number ≤ 30 → kindTag m k = some (tag0, comp) → WireOk p tag0 tag.number → ReadsBody f u m k tag.number c v →
      BodyRead u l f op t p m k tag comp c v
  | raw : k = .raw → InRaw l t → tag.cls < 4 → tag.number ≤ 2147483647 →
      (∀ en, Encoding tag comp c en → v = .raw tag.cls tag.number comp (some c) (some en)) → BodyRead u l f op t p m k tag comp c v
  | iface (k' : GoKind) (w : GoVal) : k = .iface → op.iface = true → InInterface l t → tag.cls = 0 → tag.number ≤ 30 → comp = false →
      anyKind tag.number = some k' → ReadsSimple k' tag.number c w → v = .iface w → BodyRead u l f op t p m k tag comp c v

theorem BodyRead.wrap {t t' : MTy} {p : FieldParams} {m : Str} {k : GoKind} {tag : AsnTag} {comp : Bool} {c : Bytes} {v : GoVal}
    (h : BodyRead u l f op t p m k tag comp c v) (hr : InRaw l t → InRaw l t') (hi : InInterface l t → InInterface l t') : BodyRead u l f op t' p m k tag comp c v := by
  cases h with
  | body tag0 h1 h2 h3 h4 h5 => exact .body tag0 h1 h2 h3 h4 h5
  | raw h1 h2 h3 h4 h5 => exact .raw h1 (hr h2) h3 h4 h5
  | iface k' w h1 h2 h3 h4 h5 h6 h7 h8 h9 => exact .iface k' w h1 h2 (hi h3) h4 h5 h6 h7 h8 h9

theorem BodyRead.renamed {t : MTy} {p : FieldParams} {n m : Str} {fs : List GoField} {tag : AsnTag} {comp : Bool} {c : Bytes} {v : GoVal}
    (h : BodyRead u l f op t p n (.struct fs) tag comp c v) : BodyRead u l f op t p m (.struct fs) tag comp c v := by
  cases h with
  | raw h1 _ _ _ _ => cases h1
  | iface _ _ h1 => cases h1
  | body tag0 h1 h2 h3 h4 h5 =>
    refine .body tag0 h1 h2 h3 h4 ?_
    cases h5 with
    | simple _ _ _ _ _ h => exact .simple _ _ _ _ _ h
    | struct _ _ _ _ _ _ h => exact .struct _ _ _ _ _ _ h

/-- Elements without other tags. -/
theorem BodyRead.plain {t : MTy} {e : GoExpr} {p : FieldParams} {n : Str} {k : GoKind} {tag : AsnTag} {comp : Bool} {c : Bytes} {v : GoVal}
    (h : BodyRead u l f op t p n k tag comp c v) (hu : Underlies f e n k) (ht : p.tag = none) (he : p.explicit = false) {en : Bytes} (hen : Encoding tag comp c en)
    (hl : c.length < 2147483648) (rest : Bytes) : Decodes f u e p (en ++ rest) v rest := by
  cases h with
  | body tag0 h1 h2 h3 h4 h5 =>
    obtain ⟨tc, tn⟩ := tag
    simp only at h1 h2
    subst h1
    exact .element _ _ _ _ _ _ _ _ _ _ _ hu h3 (found_plain h4 ht he hen (by simp only; omega) hl rest) h5
  | raw h1 h2 h3 h4 h5 =>
    subst h1
    rw [h5 en hen]
    have := Decodes.raw (u := u) e p (en ++ rest) n _ _ _ hu (found_raw ht he hen h3 h4 hl rest)
    simpa using this
  | iface k' w h1 h2 h3 h4 h5 h6 h7 h8 h9 =>
    subst h1 h6 h9
    have hh := parse_header hen (by omega) (by omega) hl rest
    have := Decodes.iface (u := u) e p (en ++ rest) n _ _ (.iface w) hu hh (by simp) (.value k' w rfl h4 h7 (by simpa using h8))
    simpa using this

variable (u l d r f op s) in
/-- Values of a type without tags. -/
def CoreRead (t : MTy) (x : AsnVal) (tag : AsnTag) (comp : Bool) (c : Bytes) : Prop :=
  ∀ pos e p, EncOk true op l d r s pos t → MembersNamed u l t → GoTypeOf u l d r t e → ParamsAt l pos t p → Ask l d r op t x → c.length < 2147483648 →
    ∃ n k, Underlies f e n k ∧ (MarksSet l t → k.plain) ∧ ∀ m, NameAt l pos t k n m → ∃ v x', BodyRead u l f op t p m k tag comp c v ∧
      Means l (held true u l d r f) t v x' ∧ Same l t x x' ∧ (v.isZero = true → Blank l r t x)

variable (u l d r f op s) in
/-- Values of a component. -/
def FieldRead (t : MTy) (x : AsnVal) (tag : AsnTag) (comp : Bool) (c : Bytes) : Prop :=
  ∀ e p o df, EncOkTagged true op l d r s t → MembersNamed u l t → GoTypeOf u l d r t e → TagMeaning l d t o df p → Ask l d r op t x →
    (∀ g ∈ tagsAround d t, ∀ n, g.2.1 = .number n → n ≤ 2147483647) → (∀ g ∈ tagsAround d t, g.2.2 = TAGS_EXPLICIT → g.1 ≠ CLASS_PRIVATE) →
    c.length < 2147483648 → ∃ v x', (∀ en rest, Encoding tag comp c en → Decodes f u e p (en ++ rest) v rest) ∧ Means l (held true u l d r f) t v x' ∧ Same l t x x' ∧
      (v.isZero = true → Blank l r t x)

/-- What is asked of a component. -/
structure AskMember (u : Casing) (l : List MAssignment) (d : Int) (r : Str) (op : Open) (s : Str → Prop) (y : Member) : Prop where
  ok : EncOkTagged true op l d r s y.type
  default : DefaultOk true l r y
  named : MembersNamed u l y.type
  lower : LowerName u y.name
  zero : OptionalsZero l y.type
  optional : y.optional = true → HasZero l y.type
  readable : Readable l d y.type
  numbers : ∀ g ∈ tagsAround d y.type, ∀ n, g.2.1 = .number n → n ≤ 2147483647
  classes : ∀ g ∈ tagsAround d y.type, g.2.2 = TAGS_EXPLICIT → g.1 ≠ CLASS_PRIVATE

variable (u l d r f op s) in
/-- Values of all components. -/
def MembersRead (xs : List Member) (vs : List (Option AsnVal)) (es : List (AsnTag × Bytes)) : Prop :=
  ∀ fds, (∀ y ∈ xs, AskMember u l d r op s y) → Told l d xs →
    (∀ y v, (y, some v) ∈ xs.zip vs → AskValue l r op y.type v ∧ OptionalsTold l r y.type v ∧ (y.optional = true → ¬ Blank l r y.type v)) →
    FieldsOf u l d r xs fds → (es.flatMap Prod.snd).length < 2147483648 →
    ∃ ws vs', ReadsFields f u fds (es.flatMap Prod.snd) ws [] ∧ MeansMembers l (held true u l d r f) xs ws vs' ∧ SameMembers l xs vs vs' ∧
      (fieldsZero ws = true → BlankMembers l r xs vs)

variable (u l d r f op s) in
/-- Elements. -/
def ElemsRead (t : MTy) (xs : List AsnVal) (es : List Bytes) : Prop :=
  ∀ e, EncOk true op l d r s .element t → MembersNamed u l t → GoTypeOf u l d r t e → (∀ x ∈ xs, Ask l d r op t x) → (∀ en ∈ es, en.length < 2147483648) →
    ∃ qs : List (Bytes × GoVal × AsnVal), qs.map Prod.fst = es ∧
      (∀ q ∈ qs, q.1 ≠ [] ∧ (∀ rest, Decodes f u e {} (q.1 ++ rest) q.2.1 rest) ∧ Means l (held true u l d r f) t q.2.1 q.2.2) ∧ SameElems l t xs (qs.map fun q => q.2.2)

/-! ### Single values -/

theorem wire_ok_other {p : FieldParams} {tag : Nat} (h : p.set = false) (h1 : tag ≠ 19) (h2 : tag ≠ 23) : WireOk p tag tag :=
  ⟨fun _ _ => wire_other h h1 h2 _, fun _ _ => wire_other h h1 h2 _⟩

theorem wire_ok_set {p : FieldParams} {tag : Nat} (h : p.set = true) : WireOk p tag 17 :=
  ⟨fun _ _ => wire_set h _, fun _ _ => wire_set h _⟩

theorem core_read_simple {t : MTy} {x : AsnVal} {tag : AsnTag} {comp : Bool} {c : Bytes} (h1 : ∀ g t' k b, t ≠ .tagged g t' k b)
    (h2 : ∀ t' c, t ≠ .constrained t' c) (hset : ∀ a b, t ≠ .set a b) (hsetOf : ∀ t', t ≠ .setOf t') (hm : ¬ MarksSet l t) (hcls : tag.cls = 0)
    (hnum : tag.number ≤ 30) (h : ∀ pos e p, EncOk true op l d r s pos t → GoTypeOf u l d r t e → ParamsAt l pos t p → p.set = false → AskValue l r op t x →
      ∃ k tag0 v, Underlies f e [] k ∧ kindTag [] k = some (tag0, comp) ∧ (∀ fs, k ≠ .struct fs) ∧
        WireOk p tag0 tag.number ∧ ReadsSimple k tag.number c v ∧ Means l (held true u l d r f) t v x ∧ (v.isZero = true → Blank l r t x)) :
    CoreRead u l d r f op s t x tag comp c := by
  intro pos e p hok hmn hg hp hask _
  have hc : ∀ c, Core t c → c = t := fun c hc => by
    have h3 : Core t t := .done t h1 h2
    rw [core_iff] at hc h3
    exact hc.symm.trans h3
  have hps : p.set = false := params_set hp (fun a b h => hset a b (hc _ h).symm) fun t' h => hsetOf t' (hc _ h).symm
  obtain ⟨k, tag0, v, h3, h4, h5, h6, h7, h8, h9⟩ := h pos e p hok hg hp hps hask.fits
  refine ⟨[], k, h3, fun h => absurd h hm, fun m hm' => ?_⟩
  rcases hm'.2 fun h => hm h.2 with rfl | ⟨fs, h10⟩
  · exact ⟨v, x, .body tag0 hcls hnum h4 h6 (.simple _ _ _ _ _ h7), h8, .refl _ _, h9⟩
  · exact absurd h10 (h5 fs)

theorem read_boolean (hpre : ∀ n ∈ predeclared, n ∉ declared f.decls) (b : Bool) :
    CoreRead u l d r f op s .boolean (.boolean b) ⟨0, 1⟩ false [if b then 255 else 0] := by
  refine core_read_simple (by simp) (by simp) (by simp) (by simp) (no_mark (by simp) (by simp) (by simp) (by simp) (by simp) (by simp)) rfl (by simp) ?_
  intro pos e p _ hg _ hps _
  cases hg
  refine ⟨_, _, .bool b, .bool (hpre _ (by decide)), rfl, by simp, wire_ok_other hps (by decide) (by decide), .bool _ _ _ ?_, .boolean _, fun hz => ?_⟩
  · cases b <;> rfl
  · cases b with
    | false => exact .boolean
    | true => cases hz

theorem read_integer (hpre : ∀ n ∈ predeclared, n ∉ declared f.decls) (nums : List NamedNumber) (n : Int) (c : Bytes) (hc : IntegerOctets n c) :
    CoreRead u l d r f op s (.integer nums) (.integer n) ⟨0, 2⟩ false c := by
  refine core_read_simple (by simp) (by simp) (by simp) (by simp) (no_mark (by simp) (by simp) (by simp) (by simp) (by simp) (by simp)) rfl (by simp) ?_
  intro pos e p _ hg _ hps hfit
  cases hg with
  | int64 _ hr =>
    refine ⟨_, _, .int n, .int64 (hpre _ (by decide)), rfl, by simp, wire_ok_other hps (by decide) (by decide),
      .int _ _ _ (read_int64 hc ((hfit.fits _ _ (.here _ _)).integer n rfl hr)), .integer _ _, fun hz => ?_⟩
    have : n = 0 := by simpa [GoVal.isZero] using hz
    subst this
    exact .integer _ hr
  | bigInt =>
    exact ⟨_, _, .big (some n), .big, rfl, by simp, wire_ok_other hps (by decide) (by decide), .big _ _ _ (read_big hc), .bigInteger _ _,
      fun hz => by simp [GoVal.isZero] at hz⟩

theorem read_enumerated (a b : List EnumerationItem) (n : Int) (c : Bytes) (hc : IntegerOctets n c) :
    CoreRead u l d r f op s (.enumerated a b) (.enumerated n) ⟨0, 10⟩ false c := by
  refine core_read_simple (by simp) (by simp) (by simp) (by simp) (no_mark (by simp) (by simp) (by simp) (by simp) (by simp) (by simp)) rfl (by simp) ?_
  intro pos e p _ hg _ hps hfit
  cases hg
  have := (hfit.small _ _ (.here _ _)).enumerated n rfl
  refine ⟨_, _, .enum n, .enumerated, rfl, by simp, wire_ok_other hps (by decide) (by decide), .enum _ _ _ (read_int32 hc this.1 this.2), .enumerated _ _ _,
    fun hz => ?_⟩
  have : n = 0 := by simpa [GoVal.isZero] using hz
  subst this
  exact .enumerated _ _

theorem read_octetString (hpre : ∀ n ∈ predeclared, n ∉ declared f.decls) (b : Bytes) :
    CoreRead u l d r f op s .octetString (.octets b) ⟨0, 4⟩ false b := by
  refine core_read_simple (by simp) (by simp) (by simp) (by simp) (no_mark (by simp) (by simp) (by simp) (by simp) (by simp) (by simp)) rfl (by simp) ?_
  intro pos e p _ hg _ hps hfit
  cases hg
  exact ⟨_, _, _, .bytes (hpre _ (by decide)), rfl, by simp, wire_ok_other hps (by decide) (by decide), .bytes _ _, .octetString (some b),
    fun hz => by simp [GoVal.isZero] at hz⟩

theorem read_bitString (nb : List (NamedBit DefinedValue)) (b : List Bool) (c : Bytes) (hc : BitOctets b c) (hnb : nb ≠ [] → b.getLast? ≠ some false) :
    CoreRead u l d r f op s (.bitString nb) (.bits b) ⟨0, 3⟩ false c := by
  refine core_read_simple (by simp) (by simp) (by simp) (by simp) (no_mark (by simp) (by simp) (by simp) (by simp) (by simp) (by simp)) rfl (by simp) ?_
  intro pos e p _ hg _ hps hfit
  cases hg
  obtain ⟨k, q, h1, h2, h3⟩ := read_bits hc
  exact ⟨_, _, _, .bits, rfl, by simp, wire_ok_other hps (by decide) (by decide), .bits _ _ _ _ h3, .bitString nb (some q) b k h1 h2 hnb,
    fun hz => by simp [GoVal.isZero] at hz⟩

theorem read_objectIdentifier (o : List Nat) (c : Bytes) (hc : OidOctets o c) : CoreRead u l d r f op s .objectIdentifier (.oid o) ⟨0, 6⟩ false c := by
  refine core_read_simple (by simp) (by simp) (by simp) (by simp) (no_mark (by simp) (by simp) (by simp) (by simp) (by simp) (by simp)) rfl (by simp) ?_
  intro pos e p _ hg _ hps hfit
  cases hg
  have h1 := read_oid hc ((hfit.small _ _ (.here _ _)).oid o rfl) (by rintro a b q rfl; exact (hfit.small _ _ (.here _ _)).arcs a b q rfl)
  cases hc with
  | mk a b q _ h2 h3 _ =>
    exact ⟨_, _, _, .oid, rfl, by simp, wire_ok_other hps (by decide) (by decide), .oid _ _ _ h1,
      .objectIdentifier a b q h2 h3 ((hfit.fits _ _ (.here _ _)).arcs a b q rfl), fun hz => by simp [GoVal.isZero] at hz⟩

theorem read_stringType (hpre : ∀ n ∈ predeclared, n ∉ declared f.decls) (k : Int) (tag : Nat) (ok : Char → Prop) (enc : Char → Bytes) (q : Str)
    (hk : StringKind k tag ok enc) (hq : ∀ c ∈ q, ok c) : CoreRead u l d r f op s (.restrictedString k) (.string q) ⟨0, tag⟩ false (q.flatMap enc) := by
  refine core_read_simple (by simp) (by simp) (by simp) (by simp) (no_mark (by simp) (by simp) (by simp) (by simp) (by simp) (by simp)) rfl (by cases hk <;> simp) ?_
  intro pos e p hok hg hp hps hfit
  cases hg
  rw [EncOk] at hok
  have hf : k ∈ fieldStrings := hok.elim (fun h => by rw [h]; decide) And.right
  refine ⟨_, _, .str q, .string (hpre _ (by decide)), rfl, by simp, ?_, .string _ _ _ (read_string hk hf hq), .string _ _ _ _ _ hk hq, fun hz => ?_⟩
  · have huni : tag = 19 ∨ tag ∈ stringTags := by
      cases hk with
      | visible => exact absurd hf (by decide)
      | printable => exact .inl rfl
      | _ => exact .inr (by decide)
    have hst : if tag = 19 then p.stringType = 0 else p.stringType = tag := by
      by_cases hpr : k = Tok.PrintableString
      · have hn := params_neutral hp (by simp [core_iff, removeWrapperTypes]) (by simp [core_iff, removeWrapperTypes])
          (by subst hpr; simp only [core_iff, removeWrapperTypes]; intro k hk; cases hk; decide) (by simp [core_iff, removeWrapperTypes])
        have : tag = 19 := by
          cases hk with
          | printable => rfl
          | _ => exact absurd hpr (by decide)
        rw [if_pos this]
        exact hn.stringType
      · have hkind := hp.1 (hok.resolve_left hpr).1
        cases hk with
        | printable => exact absurd rfl hpr
        | visible => exact absurd hf (by decide)
        | ia5 => exact hkind.ia5.2 (by simp [core_iff, removeWrapperTypes])
        | numeric => exact hkind.numeric.2 (by simp [core_iff, removeWrapperTypes])
        | utf8 => exact hkind.utf8.2 (by simp [core_iff, removeWrapperTypes])
    constructor
    · intro k n
      rw [wire_string hps rfl]
      rcases huni with h | h
      · subst h; rfl
      · exact if_pos h
    · intro x hx
      rw [wireTag, if_pos rfl, if_neg hx, hps]
      simp only [Bool.false_eq_true, if_false]
      split at hst
      · rw [if_neg (by simp [hst])]; exact Eq.symm ‹_›
      · rw [if_pos, hst]
        rw [hst]
        rintro rfl
        rcases huni with h | h
        · cases h
        · exact absurd h (by decide)
  · have : q = [] := by simpa [GoVal.isZero] using hz
    subst this
    exact .string _

theorem read_generalizedTime (cx : Ctx u l d r f true op s) (t : AsnTime) (h1 : ∀ t, ¬ Assigned l (c! "GeneralizedTime") t) (h2 : t.Ok) :
    CoreRead u l d r f op s (.ref (c! "GeneralizedTime")) (.time t) ⟨0, 24⟩ false (timeOctets t) := by
  have hres : Resolves l (c! "GeneralizedTime") (c! "GeneralizedTime") _ := .generalizedTime _ (.unassigned _ h1)
  refine core_read_simple (by simp) (by simp) (by simp) (by simp) (no_mark (by simp) (by simp) (by simp) (by simp) (by simp) (by simp)) rfl (by simp) ?_
  intro pos e p hok hg hp hps hfit
  have he : e = .ident (c! "time.Time") := by
    generalize hq : c! "GeneralizedTime" = q at hg hres
    cases hg with
    | time => rfl
    | bits _ b s1 nb h3 h4 h5 => obtain ⟨rfl, rfl⟩ := resolves_unique h3 hres; subst hq; exact absurd (.inl rfl) h4
    | ref _ b s1 h3 h4 h5 => obtain ⟨rfl, rfl⟩ := resolves_unique h3 hres; subst hq; exact absurd (.inl rfl) h4
  subst he
  rw [EncOk] at hok
  rcases hok with h | ⟨hpos, h⟩
  · exact absurd (.inl rfl) (ok_not_time cx h)
  · have htt : p.timeType = 24 := (hp.1 hpos).generalized.2 ⟨_, .nil, by simp [core_iff, removeWrapperTypes], timeRef_leaf h⟩
    refine ⟨_, _, _, .time, rfl, by simp, ⟨fun k n => ?_, fun x hx => ?_⟩, .time _ _ (read_time h2), .time t h1 h2, fun hz => ?_⟩
    · rw [wire_time hps rfl]; rfl
    · rw [wireTag, hps]; simp [hx, htt]
    · have h3 : (⟨t.year, t.month, t.day, t.hour, t.minute, t.second, 0⟩ : GoTime) = zeroTime := by simpa [GoVal.isZero] using hz
      simp only [zeroTime, GoTime.mk.injEq] at h3
      obtain ⟨h4, h5, h6, h7, h8, h9, -⟩ := h3
      have : t = ⟨1, 1, 1, 0, 0, 0⟩ := by
        cases t
        simp only at h4 h5 h6 h7 h8 h9
        norm_cast at h4
        subst h4 h5 h6 h7 h8 h9
        rfl
      rw [this]
      exact .time h1

end Asn1go.Deco
