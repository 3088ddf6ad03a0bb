import Verif.Proofs.Encoding.Octets2
import Verif.Proofs.Encoding.Typed2

/-! What encoding/asn1 writes for values of generated types, type by type. -/

namespace Asn1go.Enco

open Asn1go Spec CG

variable {u : Casing} {l : List MAssignment} {d : Int} {r : Str} {f : GoFile} {strict : Bool} {op : Open} {s : Str → Prop}

/-! ### Parameters of fields -/

/-- What the parameters of a field tell of its kind of string, time or set. -/
structure KindOk (l : List MAssignment) (t : MTy) (p : FieldParams) : Prop where
  set : p.set = true ↔ (∃ a b, Core t (.set a b)) ∨ ∃ t', Core t (.setOf t')
  ia5 : p.stringType = 22 ↔ Core t (.restrictedString Tok.IA5String)
  numeric : p.stringType = 18 ↔ Core t (.restrictedString Tok.NumericString)
  utf8 : p.stringType = 12 ↔ Core t (.restrictedString Tok.UTF8String)
  strings : p.stringType ∈ [0, 12, 18, 22]
  generalized : p.timeType = 24 ↔ ∃ a t', Core t (.ref a) ∧ Leaf l a (c! "GeneralizedTime") t'
  utc : p.timeType = 23 ↔ ∃ a t', Core t (.ref a) ∧ Leaf l a (c! "UTCTime") t'
  times : p.timeType ∈ [0, 23, 24]
  omitEmpty : p.omitEmpty = false

/-- No kind is told. -/
structure Neutral (p : FieldParams) : Prop where
  stringType : p.stringType = 0
  timeType : p.timeType = 0
  set : p.set = false
  omitEmpty : p.omitEmpty = false

/-- The parameters in a position. -/
def ParamsAt (l : List MAssignment) (pos : Position) (t : MTy) (p : FieldParams) : Prop :=
  (pos = .component → KindOk l t p) ∧ (pos ≠ .component → Neutral p)

theorem kind_of {o : Bool} {df : Option (Value DefinedValue)} {t : MTy} {p : FieldParams} (h : TagMeaning l d t o df p) : KindOk l t p :=
  ⟨h.set, h.ia5, h.numeric, h.utf8, h.strings, h.generalized, h.utc, h.times, h.omitEmpty⟩

theorem kind_core {t t' : MTy} {p : FieldParams} (h : KindOk l t p) (hc : ∀ c, Core t c ↔ Core t' c) : KindOk l t' p :=
  ⟨by simpa only [hc] using h.set, by simpa only [hc] using h.ia5, by simpa only [hc] using h.numeric, by simpa only [hc] using h.utf8, h.strings,
    by simpa only [hc] using h.generalized, by simpa only [hc] using h.utc, h.times, h.omitEmpty⟩

theorem kind_neutral {t : MTy} {p : FieldParams} (h : KindOk l t p) (h1 : ∀ a b, ¬ Core t (.set a b)) (h2 : ∀ t', ¬ Core t (.setOf t'))
    (h3 : ∀ k, Core t (.restrictedString k) → k ≠ Tok.IA5String ∧ k ≠ Tok.NumericString ∧ k ≠ Tok.UTF8String)
    (h4 : ∀ a b t', Core t (.ref a) → Leaf l a b t' → ¬ TimeName b) : Neutral p := by
  refine ⟨?_, ?_, ?_, h.omitEmpty⟩
  · have := h.strings
    simp only [List.mem_cons, List.not_mem_nil, or_false] at this
    rcases this with h5 | h5 | h5 | h5
    · exact h5
    · exact absurd rfl (h3 _ (h.utf8.1 h5)).2.2
    · exact absurd rfl (h3 _ (h.numeric.1 h5)).2.1
    · exact absurd rfl (h3 _ (h.ia5.1 h5)).1
  · have := h.times
    simp only [List.mem_cons, List.not_mem_nil, or_false] at this
    rcases this with h5 | h5 | h5
    · exact h5
    · obtain ⟨a, t', h6, h7⟩ := h.utc.1 h5
      exact absurd (.inr rfl) (h4 _ _ _ h6 h7)
    · obtain ⟨a, t', h6, h7⟩ := h.generalized.1 h5
      exact absurd (.inl rfl) (h4 _ _ _ h6 h7)
  · cases hs : p.set with
    | false => rfl
    | true =>
      rcases h.set.1 hs with ⟨a, b, h5⟩ | ⟨t', h5⟩
      · exact absurd h5 (h1 _ _)
      · exact absurd h5 (h2 _)

theorem params_neutral {pos : Position} {t : MTy} {p : FieldParams} (h : ParamsAt l pos t p) (h1 : ∀ a b, ¬ Core t (.set a b)) (h2 : ∀ t', ¬ Core t (.setOf t'))
    (h3 : ∀ k, Core t (.restrictedString k) → k ≠ Tok.IA5String ∧ k ≠ Tok.NumericString ∧ k ≠ Tok.UTF8String)
    (h4 : ∀ a b t', Core t (.ref a) → Leaf l a b t' → ¬ TimeName b) : Neutral p := by
  by_cases hp : pos = .component
  · exact kind_neutral (h.1 hp) h1 h2 h3 h4
  · exact h.2 hp

theorem params_constrained {pos : Position} {t : MTy} {c : Constraint DefinedValue (Value DefinedValue)} {p : FieldParams}
    (h : ParamsAt l pos (.constrained t c) p) : ParamsAt l pos t p :=
  ⟨fun hp => kind_core (h.1 hp) fun c => by rw [core_iff, core_iff, removeWrapperTypes], h.2⟩

theorem neutral_at {t : MTy} {pos : Position} {p : FieldParams} (h : Neutral p) (hp : pos ≠ .component) : ParamsAt l pos t p :=
  ⟨fun h => absurd h hp, fun _ => h⟩

/-! ### Statements -/

/-- The value is encoded as it should. -/
def GoodField (u : Casing) (l : List MAssignment) (d : Int) (strict : Bool) (t : MTy) (v : GoVal) (x : AsnVal) (p : FieldParams) : Prop :=
  ∃ bs, makeField u v p = (if leftOut p v then some [] else some bs) ∧
    (bs.length ≤ maxLength → ∃ tag k c, Enc strict l d t x tag k c ∧ Encoding tag k c bs)

/-- The value is encoded as it should, with a universal tag, apart from the tags of its field. -/
def GoodBody (u : Casing) (l : List MAssignment) (d : Int) (strict : Bool) (t : MTy) (v : GoVal) (x : AsnVal) (p : FieldParams) : Prop :=
  ∃ tag k body, makeField u v p = (if leftOut p v then some [] else some (addTags p tag k body)) ∧
    (body.length ≤ maxLength → Enc strict l d t x ⟨0, tag⟩ k body)

/-- The value is encoded as it should, with a universal tag, apart from the tags of its field, or with the tag of a raw value. -/
def Good (u : Casing) (l : List MAssignment) (d : Int) (strict : Bool) (t : MTy) (v : GoVal) (x : AsnVal) (p : FieldParams) : Prop :=
  GoodBody u l d strict t v x p ∨ (InRaw l t ∧ GoodField u l d strict t v x p)

theorem good_wrap {t t' : MTy} {v v' : GoVal} {x x' : AsnVal} {p : FieldParams} (h : Good u l d strict t v x p) (hr : InRaw l t → InRaw l t')
    (hm : makeField u v' p = makeField u v p) (hl : leftOut p v' = leftOut p v)
    (he : ∀ tag k c, Enc strict l d t x tag k c → Enc strict l d t' x' tag k c) : Good u l d strict t' v' x' p := by
  rcases h with ⟨tag, k, body, h1, h2⟩ | ⟨h0, bs, h1, h2⟩
  · exact .inl ⟨tag, k, body, by rw [hm, hl, h1], fun hb => he _ _ _ (h2 hb)⟩
  · refine .inr ⟨hr h0, bs, by rw [hm, hl, h1], fun hb => ?_⟩
    obtain ⟨tag, k, c, h3, h4⟩ := h2 hb
    exact ⟨tag, k, c, he _ _ _ h3, h4⟩

variable (u l d r f strict op s) in
/-- Values of a type without tags. -/
def CoreStmt (t : MTy) (v : GoVal) (x : AsnVal) : Prop :=
  ∀ pos e p, EncOk strict op l d r s pos t → MembersNamed u l t → GoTypeOf u l d r t e → TypedAt l f pos t e v → ParamsAt l pos t p →
    (InInterface l t → p.optional = false) → Good u l d strict t v x p

variable (u l d r f strict op s) in
/-- Values of a component. -/
def FieldStmt (t : MTy) (v : GoVal) (x : AsnVal) : Prop :=
  ∀ e p o df, EncOkTagged strict op l d r s t → MembersNamed u l t → GoTypeOf u l d r t e → Typed f e v → TagMeaning l d t o df p →
    (InInterface l t → p.optional = false) → GoodField u l d strict t v x p

variable (u l d r f strict op s) in
/-- Values of all components. -/
def MembersStmt (xs : List Member) (fs : List GoFieldVal) (vs : List (Option AsnVal)) : Prop :=
  ∀ fds, (∀ y ∈ xs, EncOkTagged strict op l d r s y.type ∧ DefaultOk strict l r y ∧ MembersNamed u l y.type ∧ LowerName u y.name ∧
      (op.iface = true → y.optional = true → ¬ InInterface l y.type)) →
    FieldsOf u l d r xs fds → TypedFields f fds fs →
    ∃ bss, makeFields u fs = some bss ∧ (bss.flatten.length ≤ maxLength → ∃ es, EncMembers strict l d xs vs es ∧ es.flatMap Prod.snd = bss.flatten)

variable (u l d r f strict op s) in
/-- Elements. -/
def ElemsStmt (t : MTy) (vs : List GoVal) (xs : List AsnVal) : Prop :=
  ∀ e, EncOk strict op l d r s .element t → MembersNamed u l t → GoTypeOf u l d r t e → TypedElems f e vs →
    ∃ bss, makeElems u vs = some bss ∧ (bss.flatten.length ≤ maxLength → EncElems strict l d t xs bss)

/-! ### Single values -/

theorem makeValue_eq {p : FieldParams} {v : GoVal} {children : Option (List Bytes)} {tag tag' : Nat} {k : Bool} {body : Bytes}
    (h1 : universalType v = some (tag, k)) (h2 : chooseTag p v tag = some tag')
    (h3 : makeBody { p with set := p.set || tag' == 17 } children v = some body) :
    makeValue p v children = if leftOut p v then some [] else some (addTags p tag' k body) := by
  cases v <;> simp_all [makeValue, universalType]

/-- Values that are not composed. -/
def simple : GoVal → Bool
  | .nilIface => false
  | .iface _ => false
  | .struct _ => false
  | .slice _ _ _ => false
  | _ => true

theorem makeField_simple {v : GoVal} (h : simple v = true) (p : FieldParams) : makeField u v p = makeValue p v (some []) := by
  cases v <;> simp_all [simple, makeField]

theorem good_simple {t : MTy} {v : GoVal} {x : AsnVal} {p : FieldParams} {tag tag' : Nat} {k : Bool} {body : Bytes} (hs : simple v = true)
    (h1 : universalType v = some (tag, k)) (h2 : chooseTag p v tag = some tag')
    (h3 : makeBody { p with set := p.set || tag' == 17 } (some []) v = some body)
    (h4 : body.length ≤ maxLength → Enc strict l d t x ⟨0, tag'⟩ k body) : Good u l d strict t v x p :=
  .inl ⟨tag', k, body, by rw [makeField_simple hs, makeValue_eq h1 h2 h3], h4⟩

/-- The tag chosen without parameters. -/
theorem choose_neutral {p : FieldParams} (hp : Neutral p) {v : GoVal} {tag : Nat} (h1 : ∀ s, v ≠ .str s) (h2 : ∀ t, v ≠ .time t) :
    chooseTag p v tag = some tag := by
  rw [chooseTag, if_neg (fun h => h.1 hp.timeType), if_neg (fun h => h.1 hp.stringType), hp.set, if_neg (by simp)]
  cases v with
  | str s => exact absurd rfl (h1 s)
  | time t => exact absurd rfl (h2 t)
  | _ => rfl

theorem choose_string {p : FieldParams} {str : Str} {tag : Nat} (ht : p.timeType = 0) (hs : p.set = false)
    (h : (if p.stringType = 0 then if str.all printableChar then 19 else 12 else p.stringType) = tag) : chooseTag p (.str str) 19 = some tag := by
  rw [chooseTag, if_neg (fun h => h.1 ht), if_neg (fun h => h.2 rfl), hs, if_neg (by simp), valueTag, h]

theorem choose_time {p : FieldParams} {t : GoTime} (ht : p.timeType = 24) (hst : p.stringType = 0) (hs : p.set = false) :
    chooseTag p (.time t) 23 = some 24 := by
  rw [chooseTag, if_neg (fun h => h.2 rfl), if_neg (fun h => h.1 hst), hs, if_neg (by simp), valueTag, ht]
  rfl

theorem addTags_length {p : FieldParams} {tag : Nat} {k : Bool} {body : Bytes} : body.length ≤ (addTags p tag k body).length := by
  unfold addTags
  cases p.tag with
  | none => simp
  | some n =>
    simp only
    split
    · simp; omega
    · simp

theorem core_boolean (b : Bool) : CoreStmt u l d r f strict op s .boolean (.bool b) (.boolean b) := by
  intro pos e p _ _ _ _ hp hi
  have hn := params_neutral hp (by simp [core_iff, removeWrapperTypes]) (by simp [core_iff, removeWrapperTypes]) (by simp [core_iff, removeWrapperTypes])
    (by simp [core_iff, removeWrapperTypes])
  exact good_simple rfl rfl (choose_neutral hn (by simp) (by simp)) rfl fun _ => .boolean b

theorem typed_int {e : GoExpr} {n : Int} (h : Typed f e (.int n)) : GoInt n := by
  refine Typed.rec (motive_1 := fun e v _ => ∀ n, v = .int n → GoInt n) (motive_2 := fun _ _ _ => True)
      (motive_3 := fun _ _ _ => True) ?_ ?_ ?_ ?_ ?_ ?_ ?_ ?_ ?_ ?_ ?_ ?_ ?_ ?_ ?_ ?_ ?_ ?_ ?_ ?_ ?_ h n rfl
  case refine_17 =>
    intro m e v _ _ ih n hv
    cases v <;> simp_all [GoVal.named]
  all_goals intros; first | trivial | simp_all

theorem typed_enum {e : GoExpr} {n : Int} (h : Typed f e (.enum n)) : GoInt n := by
  refine Typed.rec (motive_1 := fun e v _ => ∀ n, v = .enum n → GoInt n) (motive_2 := fun _ _ _ => True)
      (motive_3 := fun _ _ _ => True) ?_ ?_ ?_ ?_ ?_ ?_ ?_ ?_ ?_ ?_ ?_ ?_ ?_ ?_ ?_ ?_ ?_ ?_ ?_ ?_ ?_ h n rfl
  case refine_17 =>
    intro m e v _ _ ih n hv
    cases v <;> simp_all [GoVal.named]
  all_goals intros; first | trivial | simp_all

theorem core_integer (nums : List NamedNumber) (n : Int) : CoreStmt u l d r f strict op s (.integer nums) (.int n) (.integer n) := by
  intro pos e p _ _ _ ht hp hi
  have hn := params_neutral hp (by simp [core_iff, removeWrapperTypes]) (by simp [core_iff, removeWrapperTypes]) (by simp [core_iff, removeWrapperTypes])
    (by simp [core_iff, removeWrapperTypes])
  have ht' := typedAt_not ht (.inr (not_marks (.done _ (by simp) (by simp)) (by simp) (by simp) (by simp) (by simp)))
  exact good_simple rfl rfl (choose_neutral hn (by simp) (by simp)) rfl fun _ => .integer _ _ _ (encodeInt_spec (typed_int ht'))

theorem core_bigInteger (nums : List NamedNumber) (n : Int) : CoreStmt u l d r f strict op s (.integer nums) (.big (some n)) (.integer n) := by
  intro pos e p _ _ _ ht hp hi
  have hn := params_neutral hp (by simp [core_iff, removeWrapperTypes]) (by simp [core_iff, removeWrapperTypes]) (by simp [core_iff, removeWrapperTypes])
    (by simp [core_iff, removeWrapperTypes])
  obtain ⟨b, hb, hi⟩ := encodeBig_spec n
  exact good_simple rfl rfl (choose_neutral hn (by simp) (by simp)) (by simpa [makeBody] using hb) fun _ => .integer _ _ _ hi

theorem core_enumerated (a b : List EnumerationItem) (n : Int) : CoreStmt u l d r f strict op s (.enumerated a b) (.enum n) (.enumerated n) := by
  intro pos e p _ _ _ ht hp hi
  have hn := params_neutral hp (by simp [core_iff, removeWrapperTypes]) (by simp [core_iff, removeWrapperTypes]) (by simp [core_iff, removeWrapperTypes])
    (by simp [core_iff, removeWrapperTypes])
  have ht' := typedAt_not ht (.inr (not_marks (.done _ (by simp) (by simp)) (by simp) (by simp) (by simp) (by simp)))
  exact good_simple rfl rfl (choose_neutral hn (by simp) (by simp)) rfl fun _ => .enumerated _ _ _ _ (encodeInt_spec (typed_enum ht'))

theorem core_octetString (b : Option Bytes) : CoreStmt u l d r f strict op s .octetString (.bytes b) (.octets (b.getD [])) := by
  intro pos e p _ _ _ _ hp hi
  have hn := params_neutral hp (by simp [core_iff, removeWrapperTypes]) (by simp [core_iff, removeWrapperTypes]) (by simp [core_iff, removeWrapperTypes])
    (by simp [core_iff, removeWrapperTypes])
  exact good_simple rfl rfl (choose_neutral hn (by simp) (by simp)) rfl fun _ => .octetString _

theorem core_bitString (nb : List (NamedBit DefinedValue)) (b : Option Bytes) (bits : List Bool) (k : Nat) (hk : k < 8)
    (h : (b.getD []).flatMap octetBits = bits ++ List.replicate k false) (hl : nb ≠ [] → bits.getLast? ≠ some false) :
    CoreStmt u l d r f strict op s (.bitString nb) (.bits b bits.length) (.bits bits) := by
  intro pos e p _ _ _ _ hp hi
  have hn := params_neutral hp (by simp [core_iff, removeWrapperTypes]) (by simp [core_iff, removeWrapperTypes]) (by simp [core_iff, removeWrapperTypes])
    (by simp [core_iff, removeWrapperTypes])
  exact good_simple rfl rfl (choose_neutral hn (by simp) (by simp)) rfl fun _ => .bitString _ _ _ (encodeBits_spec hk h) hl

theorem core_objectIdentifier (a b : Nat) (o : List Nat) (h1 : a ≤ 2) (h2 : a < 2 → b < 40) (h3 : GoInt (40 * a + b)) :
    CoreStmt u l d r f strict op s .objectIdentifier (.oid (some ((a :: b :: o).map Int.ofNat))) (.oid (a :: b :: o)) := by
  intro pos e p _ _ _ _ hp hi
  have hn := params_neutral hp (by simp [core_iff, removeWrapperTypes]) (by simp [core_iff, removeWrapperTypes]) (by simp [core_iff, removeWrapperTypes])
    (by simp [core_iff, removeWrapperTypes])
  obtain ⟨c, h4, h5⟩ := encodeOid_spec (r := o) h1 h2 h3
  exact good_simple rfl rfl (choose_neutral hn (by simp) (by simp)) (by rw [makeBody]; exact h4) fun _ => .objectIdentifier _ _ h5

theorem core_string (k : Int) (tag : Nat) (ok : Char → Prop) (enc : Char → Bytes) (str : Str) (hk : StringKind k tag ok enc) (hc : ∀ c ∈ str, ok c) :
    CoreStmt u l d r f strict op s (.restrictedString k) (.str str) (.string str) := by
  intro pos e p hok _ _ _ hp hi
  have henc := Enc.string (strict := strict) (l := l) (deflt := d) k tag ok enc str hk hc
  rw [EncOk] at hok
  by_cases hpr : k = Tok.PrintableString
  · subst hpr
    have hn := params_neutral hp (by simp [core_iff, removeWrapperTypes]) (by simp [core_iff, removeWrapperTypes])
      (by simp only [core_iff, removeWrapperTypes]; intro k hk; cases hk; decide) (by simp [core_iff, removeWrapperTypes])
    generalize hk' : Tok.PrintableString = k' at hk
    cases hk with
    | printable =>
      have hall : str.all printableChar = true := List.all_eq_true.2 fun c h => (printable_chars c (hc c h)).1
      refine good_simple (tag := 19) (tag' := 19) (k := false) (body := str.flatMap fun c => [UInt8.ofNat c.toNat]) rfl rfl ?_ ?_ fun _ => henc
      · exact choose_string hn.timeType hn.set (by rw [if_pos hn.stringType, if_pos hall])
      · rw [← stringBytes_ascii fun c h => (printable_chars c (hc c h)).2]
        rw [makeBody, encodeString]
        simp only [hn.stringType]
        rfl
    | _ => exact absurd hk' (by decide)
  · rcases hok with h | ⟨hpos, hf⟩
    · exact absurd h hpr
    · have hkind := hp.1 hpos
      have htime : p.timeType = 0 := by
        have := hkind.times
        simp only [List.mem_cons, List.not_mem_nil, or_false] at this
        rcases this with h | h | h
        · exact h
        · obtain ⟨a, t', h6, h7⟩ := hkind.utc.1 h
          simp [core_iff, removeWrapperTypes] at h6
        · obtain ⟨a, t', h6, h7⟩ := hkind.generalized.1 h
          simp [core_iff, removeWrapperTypes] at h6
      have hset : p.set = false := by
        cases hs : p.set with
        | false => rfl
        | true =>
          rcases hkind.set.1 hs with ⟨a, b, h5⟩ | ⟨t', h5⟩ <;> simp [core_iff, removeWrapperTypes] at h5
      cases hk with
      | printable => exact absurd rfl hpr
      | visible => exact absurd hf (by decide)
      | ia5 =>
        have hst : p.stringType = 22 := hkind.ia5.2 (by simp [core_iff, removeWrapperTypes])
        refine good_simple (tag := 19) (tag' := 22) (k := false) (body := str.flatMap fun c => [UInt8.ofNat c.toNat]) rfl rfl ?_ ?_ fun _ => henc
        · exact choose_string htime hset (by rw [if_neg (by rw [hst]; decide)]; exact hst)
        · rw [← stringBytes_ascii hc, makeBody, encodeString, if_pos hst, if_pos]
          exact List.all_eq_true.2 fun c h => by have := hc c h; simp; omega
      | numeric =>
        have hst : p.stringType = 18 := hkind.numeric.2 (by simp [core_iff, removeWrapperTypes])
        refine good_simple (tag := 19) (tag' := 18) (k := false) (body := str.flatMap fun c => [UInt8.ofNat c.toNat]) rfl rfl ?_ ?_ fun _ => henc
        · exact choose_string htime hset (by rw [if_neg (by rw [hst]; decide)]; exact hst)
        · rw [← stringBytes_ascii fun c h => (numeric_chars c (hc c h)).2, makeBody, encodeString]
          rw [if_neg (by simp [hst]), if_neg (by simp [hst]), if_pos hst, if_pos]
          exact List.all_eq_true.2 fun c h => (numeric_chars c (hc c h)).1
      | utf8 =>
        have hst : p.stringType = 12 := hkind.utf8.2 (by simp [core_iff, removeWrapperTypes])
        refine good_simple (tag := 19) (tag' := 12) (k := false) (body := str.flatMap utf8Bytes) rfl rfl ?_ ?_ fun _ => henc
        · exact choose_string htime hset (by rw [if_neg (by rw [hst]; decide)]; exact hst)
        · rw [makeBody, encodeString]
          simp only [hst]
          rfl

/-! ### References -/

theorem core_timeRef {a : Str} {v : GoVal} {x : AsnVal} (ht : TimeRef l a) (hm : Means l (held strict u l d r f) (.ref a) v x) {p : FieldParams} (hk : KindOk l (.ref a) p) :
    Good u l d strict (.ref a) v x p := by
  obtain ⟨t, h1, rfl, h2⟩ := time_ref (strict := strict) (d := d) ht hm
  have htt : p.timeType = 24 := hk.generalized.2 ⟨a, .nil, by simp [core_iff, removeWrapperTypes], timeRef_leaf ht⟩
  have hst : p.stringType = 0 := by
    have := hk.strings
    simp only [List.mem_cons, List.not_mem_nil, or_false] at this
    rcases this with h5 | h5 | h5 | h5
    · exact h5
    · have := hk.utf8.1 h5; simp [core_iff, removeWrapperTypes] at this
    · have := hk.numeric.1 h5; simp [core_iff, removeWrapperTypes] at this
    · have := hk.ia5.1 h5; simp [core_iff, removeWrapperTypes] at this
  have hset : p.set = false := by
    cases hs : p.set with
    | false => rfl
    | true => rcases hk.set.1 hs with ⟨a, b, h5⟩ | ⟨t', h5⟩ <;> simp [core_iff, removeWrapperTypes] at h5
  refine good_simple (tag := 23) (tag' := 24) (k := false) (body := timeOctets t) rfl rfl ?_ ?_ fun _ => h2
  · exact choose_time htt hst hset
  · rw [← encodeTime_spec h1]
    rw [makeBody]
    simp only [htt]
    rfl

theorem core_time (cx : Ctx u l d r f strict op s) (t : AsnTime) (h1 : ∀ t, ¬ Assigned l (c! "GeneralizedTime") t) (h2 : t.Ok) :
    CoreStmt u l d r f strict op s (.ref (c! "GeneralizedTime")) (.time ⟨t.year, t.month, t.day, t.hour, t.minute, t.second, 0⟩) (.time t) := by
  intro pos e p hok _ _ _ hp hi
  rw [EncOk] at hok
  rcases hok with h | ⟨hpos, h⟩
  · exact absurd (.inl rfl) (ok_not_time cx h)
  · exact core_timeRef (r := r) (f := f) h (.time t h1 h2) (hp.1 hpos)

theorem core_ref (cx : Ctx u l d r f strict op s) (a : Str) (t : MTy) (v : GoVal) (x : AsnVal) (ha : Assigned l a t) (hm : Means l (held strict u l d r f) t v x)
    (ih : CoreStmt u l d r f strict op s t v x) : CoreStmt u l d r f strict op s (.ref a) v x := by
  intro pos e p hok _ hg hty hp hi
  rw [EncOk] at hok
  have hty' := typedAt_not hty (.inr (not_marks (.done _ (by simp) (by simp)) (by simp) (by simp) (by simp) (by simp)))
  rcases hok with h | ⟨hpos, h⟩
  · obtain ⟨t', e', h1, h2, h3⟩ := typed_ref cx h hg hty'
    cases assigned_unique ha h1
    obtain ⟨t', h4, h5⟩ := cx.closed a h
    cases assigned_unique ha h4
    have hn := params_neutral hp (by simp [core_iff, removeWrapperTypes]) (by simp [core_iff, removeWrapperTypes]) (by simp [core_iff, removeWrapperTypes])
      (by
        intro b c t' hb hl
        simp [core_iff, removeWrapperTypes] at hb
        subst hb
        exact ok_not_time cx (leaf_ok cx hl h).1)
    exact good_wrap (ih .assignment e' p h5 (cx.members _ _ (assigned_mem ha)) h2 h3 (neutral_at hn (by decide)) (fun h => hi (.ref _ _ ha h)))
      (.ref _ _ ha) rfl rfl fun _ _ _ h => .ref _ _ _ _ _ _ ha h
  · exact core_timeRef h (.ref _ _ _ _ ha hm) (hp.1 hpos)

/-! ### Constraints, CHOICE -/

theorem core_constrained (t : MTy) (c : Constraint DefinedValue (Value DefinedValue)) (v : GoVal) (x : AsnVal)
    (ih : CoreStmt u l d r f strict op s t v x) : CoreStmt u l d r f strict op s (.constrained t c) v x := by
  intro pos e p hok hmn hg hty hp hi
  cases hg with
  | constrained _ _ _ hg =>
    have hty' : TypedAt l f pos t e v :=
      ⟨fun h => hty.1 ⟨h.1, .constrained _ _ h.2⟩, fun h => hty.2 fun h' => h ⟨h'.1, by cases h'.2 with | constrained _ _ h => exact h⟩⟩
    exact good_wrap (ih pos e p (by simpa [EncOk] using hok)
      (fun a b h => hmn a b (h.imp (.constrained _ _ _) (.constrained _ _ _))) hg hty' (params_constrained hp) (fun h => hi (.constrained _ _ h)))
      (.constrained _ _) rfl rfl fun _ _ _ h => .constrained _ _ _ _ _ _ h

theorem core_choice (n : Str) (t : MTy) (ext : List MTy) (v : GoVal) (x : AsnVal) (hna : ¬ AltTagged l t)
    (ih : CoreStmt u l d r f strict op s t v x) : CoreStmt u l d r f strict op s (.choice [.mk n t] ext) v (.choice n x) := by
  intro pos e p hok hmn hg hty hp hi
  have hok' : EncOk strict op l d r s .element t := only_ok hok hna
  have hn := params_neutral hp (by simp [core_iff, removeWrapperTypes]) (by simp [core_iff, removeWrapperTypes]) (by simp [core_iff, removeWrapperTypes])
    (by simp [core_iff, removeWrapperTypes])
  have hnm : ¬ MarksSet l (.choice [.mk n t] ext) := by
    intro hm
    cases hm with
    | choice _ _ _ _ hm => exact ok_not_marks hm hok'
  cases hg with
  | rawChoice _ _ h => exact absurd h (some_tagged hna)
  | onlyChoice _ _ _ _ hna hg =>
    exact good_wrap (ih .element e p hok' (fun a b h => hmn a b (h.imp (.choice _ _ _ _ hna) (.choice _ _ _ _ hna))) hg
      (typedAt_of (typedAt_not hty (.inr hnm)) (.inl (by decide))) (neutral_at hn (by decide)) (fun h => hi (.only _ _ _ hna h)))
      (.alternative _ _ n t (by simp)) rfl rfl fun _ _ _ h => .choice _ _ _ _ _ _ _ _ (by simp) h
  | choice _ _ _ h => simp at h

theorem leftOut_required {p : FieldParams} {v : GoVal} (h1 : p.omitEmpty = false) (h2 : p.optional = false) : leftOut p v = false := by
  unfold leftOut; rw [h1, h2]; simp

theorem makeField_boxed (v : GoVal) (p : FieldParams) : makeField u v.boxed p = makeField u v p := by
  cases v <;> simp [GoVal.boxed, makeField]

/-- Alternatives held in an interface. -/
theorem core_alternative (alts : List MNamed) (ext : List MTy) (n : Str) (t : MTy) (v w : GoVal) (x : AsnVal)
    (hna : ¬ SomeTagged l alts) (hl : alts.length ≠ 1) (hm : NamedType.mk n t ∈ alts) (hB : HasGoType u l d r f t v) (hw : w = v.boxed)
    (ih : CoreStmt u l d r f strict op s t v x) : CoreStmt u l d r f strict op s (.choice alts ext) w (.choice n x) := by
  intro pos e p hok hmn hg hty hp hi
  replace hok := choice_ok hok hna
  subst hw
  have hn := params_neutral hp (by simp [core_iff, removeWrapperTypes]) (by simp [core_iff, removeWrapperTypes]) (by simp [core_iff, removeWrapperTypes])
    (by simp [core_iff, removeWrapperTypes])
  obtain ⟨e', h1, h2⟩ := hB
  have hopt := hi (.several _ _ hna hl)
  have hns := (alts_several hok hl).2.2.2 n t hm
  exact good_wrap (ih .element e' p (alts_mem hok hm) (fun a b h => (h.elim (hns a b).1 (hns a b).2).elim) h1
    (typedAt_of h2 (.inl (by decide))) (neutral_at hn (by decide)) (fun _ => hopt)) (.alternative _ _ _ _ hm) (makeField_boxed _ _)
    (by rw [leftOut_required hn.omitEmpty hopt, leftOut_required hn.omitEmpty hopt]) fun _ _ _ h => .choice _ _ _ _ _ _ _ _ hm h

theorem enc_class {t : MTy} {x : AsnVal} {tag : AsnTag} {k : Bool} {c : Bytes} (h : Enc strict l d t x tag k c) : tag.cls < 4 := by
  have hc : ∀ i : Int, classOf i < 4 := by intro i; unfold classOf; split <;> [skip; split <;> [skip; split]] <;> decide
  refine Enc.rec (motive_1 := fun _ _ tag _ _ _ => tag.cls < 4) (motive_2 := fun _ _ _ _ => True) (motive_3 := fun _ _ _ _ => True)
    ?_ ?_ ?_ ?_ ?_ ?_ ?_ ?_ ?_ ?_ ?_ ?_ ?_ ?_ ?_ ?_ ?_ ?_ ?_ ?_ ?_ ?_ ?_ h
  all_goals intros; first | trivial | assumption | exact hc _ | (simp; done)

/-- Values held in a raw value. -/
theorem core_raw (alts : List MNamed) (ext : List MTy) (cls tag : Nat) (k : Bool) (b full : Option Bytes) (x : AsnVal)
    (ht : SomeTagged l alts) (hc : Enc strict l d (.choice alts ext) x ⟨cls, tag⟩ k (b.getD []))
    (hf : full.getD [] ≠ [] → Encoding ⟨cls, tag⟩ k (b.getD []) (full.getD [])) :
    CoreStmt u l d r f strict op s (.choice alts ext) (.raw cls tag k b full) x := by
  intro pos e p hok hmn hg hty hp hi
  refine .inr ⟨.raw _ _ ht, if full.getD [] ≠ [] then full.getD [] else header cls tag k (b.getD []).length ++ b.getD [], ?_, fun hl => ?_⟩
  · rw [makeField_simple rfl, makeValue]
    cases leftOut p (.raw cls tag k b full) with
    | true => rfl
    | false =>
      simp only [Bool.false_eq_true, if_false, Int.toNat_natCast]
      split
      · cases full with
        | none => rename_i h; exact absurd rfl h
        | some y => rfl
      · rfl
  · refine ⟨_, _, _, hc, ?_⟩
    split at hl
    · rename_i h; rw [if_pos h]; exact hf h
    · rename_i h
      rw [if_neg h]
      exact header_spec _ _ _ _ (enc_class hc) (by simp only [List.length_append] at hl; omega)

end Asn1go.Enco
