import Verif.Proofs.Decoding.Read
import Mathlib.Data.List.Sort

/-! What encoding/asn1 reads from encodings of values: references, components, elements. -/

namespace Asn1go.Deco

open Asn1go Spec CG Enco

variable {u : Casing} {l : List MAssignment} {d : Int} {r : Str} {f : GoFile} {op : Open} {s : Str → Prop}

/-! ### References, constraints, CHOICE -/

theorem readFits_part {t t' : MTy} {x y : AsnVal} (h : ReadFits l r t x) (hp : ∀ t'' z, Seen l t' y t'' z → Seen l t x t'' z) : ReadFits l r t' y where
  fits := fits_part h.fits hp
  small := fun _ _ hz => h.small _ _ (hp _ _ hz)

theorem askValue_part {t t' : MTy} {x y : AsnVal} (h : AskValue l r op t x) (hp : ∀ t'' z, Seen l t' y t'' z → Seen l t x t'' z) : AskValue l r op t' y where
  toReadFits := readFits_part h.toReadFits hp
  ifaces ho := ⟨fun g t k b z hz => (h.ifaces ho).untagged g t k b z (hp _ _ hz), fun alts e n z hz => (h.ifaces ho).alternatives alts e n z (hp _ _ hz)⟩

theorem ask_inside {t t' : MTy} {x y : AsnVal} (h : Ask l d r op t x) (hi : ∀ t'', Inside l t' t'' → Inside l t t'')
    (ha : ∀ t'' z, Seen l t' y t'' z → Seen l t x t'' z) : Ask l d r op t' y where
  fits := askValue_part h.fits ha
  zero a b hab := h.zero a b (hab.imp (hi _) (hi _))
  told a b vs hab := h.told a b vs (hab.imp (ha _ _) (ha _ _))
  readable := ⟨fun a b hab => h.readable.components a b (hab.imp (hi _) (hi _)), fun t hab => h.readable.elements t (hab.imp (hi _) (hi _))⟩

theorem read_ref (cx : Ctx u l d r f true op s) (hzero : ∀ a t, .type a t ∈ l → OptionalsZero l t) (hread : ∀ a t, .type a t ∈ l → Readable l d t)
    (a : Str) (t : MTy) (x : AsnVal) (tag : AsnTag) (comp : Bool) (c : Bytes) (ha : Assigned l a t) (h : CoreRead u l d r f op s t x tag comp c) :
    CoreRead u l d r f op s (.ref a) x tag comp c := by
  intro pos e p hok hmn hg hp hask hl
  have hnm : ¬ MarksSet l (.ref a) := not_marks (.done _ (by simp) (by simp)) (by simp) (by simp) (by simp) (by simp)
  obtain ⟨pos', h1, h2, h3⟩ := ref_step cx ha hok hp
  obtain ⟨n, k, h4, h5⟩ := under_ref cx ha h1
    (P := fun m k => ∃ v x', BodyRead u l f op (.ref a) p m k tag comp c v ∧ Means l (held true u l d r f) (.ref a) v x' ∧
      Same l (.ref a) x x' ∧ (v.isZero = true → Blank l r (.ref a) x))
    (by
      rintro n m fs ⟨v, x', h5, h8, h9, h10⟩
      exact ⟨v, x', h5.renamed, h8, h9, h10⟩)
    (fun e he => by
      obtain ⟨n, k, h4, h5, h6⟩ := h pos' e p h2 (cx.members _ _ (assigned_mem ha)) he h3
        ⟨askValue_part hask.fits fun _ _ => .ref _ _ _ _ _ ha, hzero _ _ (assigned_mem ha), fun a' b vs hab => hask.told a' b vs (hab.imp (.ref _ _ _ _ _ ha) (.ref _ _ _ _ _ ha)),
          hread _ _ (assigned_mem ha)⟩ hl
      refine ⟨n, k, h4, h5, fun m hm => ?_⟩
      obtain ⟨v, x', h5, h8, h9, h10⟩ := h6 m hm
      exact ⟨v, x', h5.wrap (.ref _ _ ha) (.ref _ _ ha), .ref _ _ _ _ ha h8, .ref _ _ _ _ ha h9, fun hz => .ref _ _ _ ha (h10 hz)⟩) (.inl hg)
  exact ⟨n, k, h4, fun h => absurd h hnm, fun m hm => h5 m (hm.2 fun h => hnm h.2)⟩

theorem read_constrained (t : MTy) (y : Constraint DefinedValue (Value DefinedValue)) (x : AsnVal) (tag : AsnTag) (comp : Bool) (c : Bytes)
    (h : CoreRead u l d r f op s t x tag comp c) : CoreRead u l d r f op s (.constrained t y) x tag comp c := by
  intro pos e p hok hmn hg hp hask hl
  cases hg with
  | constrained _ _ _ hg =>
    obtain ⟨n, k, h1, h2, h3⟩ := h pos e p (by simpa [EncOk] using hok) (fun a b h => hmn a b (h.imp (.constrained _ _ _) (.constrained _ _ _))) hg
      (params_constrained hp) (ask_inside hask (fun _ h => .constrained _ _ _ h) (fun _ _ h => .constrained _ _ _ _ _ h)) hl
    refine ⟨n, k, h1, fun hm => h2 (by cases hm with | constrained _ _ h => exact h), fun m hm => ?_⟩
    obtain ⟨v, x', h5, h8, h9, h10⟩ := h3 m
      ⟨fun h => hm.1 ⟨h.1, .constrained _ _ h.2⟩, fun h => hm.2 fun h' => h ⟨h'.1, by cases h'.2 with | constrained _ _ h => exact h⟩⟩
    exact ⟨v, x', h5.wrap (.constrained _ _) (.constrained _ _), .constrained _ _ _ _ h8, .constrained _ _ _ _ h9, fun hz => .constrained _ _ _ (h10 hz)⟩

/-- What is read into an interface is of the Go type of the alternative. -/
theorem read_any (cx : Ctx u l d r f true op s) (hpre : ∀ n ∈ predeclared, n ∉ declared f.decls) {t : MTy} {x : AsnVal} (hg : GivenBack l r t x) {tag : AsnTag} {comp : Bool} {c : Bytes}
    (henc : Enc true l d t x tag comp c) (hfit : ReadFits l r t x) : ∃ k w v, comp = false ∧ tag.cls = 0 ∧ tag.number ≤ 30 ∧ anyKind tag.number = some k ∧
      ReadsSimple k tag.number c w ∧ v.boxed = .iface w ∧ (∀ n, v.named n = v) ∧ (∃ e, GoTypeOf u l d r t e) ∧ (∀ e, GoTypeOf u l d r t e → Typed f e v) ∧ Means l (held true u l d r f) t v x := by
  induction hg with
  | integer nums x hr =>
    cases henc with
    | integer _ n _ hc =>
      have hgo := (hfit.fits _ _ (.here _ _)).integer n rfl hr
      exact ⟨.int, .int n, .int n, rfl, rfl, by simp, rfl, .int _ _ _ (read_int64 hc hgo), rfl, fun _ => rfl, ⟨_, .int64 _ hr⟩,
        fun e he => by cases he with | int64 => exact .int64 _ (hpre _ (by decide)) hgo | bigInt _ h => exact absurd (hr.symm.trans h) (by decide), .integer _ _⟩
  | octetString =>
    cases henc with
    | octetString => exact ⟨.bytes, _, _, rfl, rfl, by simp, rfl, .bytes _ _, rfl, fun _ => rfl, ⟨_, .octetString⟩, fun e he => by cases he; exact .bytes _ (hpre _ (by decide)), .octetString (some c)⟩
  | bitString nb =>
    cases henc with
    | bitString _ b _ hc hnb =>
      obtain ⟨k, q, h1, h2, h3⟩ := read_bits hc
      exact ⟨.bits, _, _, rfl, rfl, by simp, rfl, .bits _ _ _ _ h3, rfl, fun _ => rfl, ⟨_, .bitString _⟩, fun e he => by cases he; exact .bits _ _ ((hfit.fits _ _ (.here _ _)).bits b rfl),
        .bitString nb (some q) b k h1 h2 hnb⟩
  | objectIdentifier =>
    cases henc with
    | objectIdentifier o _ hc =>
      have h1 := read_oid hc ((hfit.small _ _ (.here _ _)).oid o rfl) (by rintro a b q rfl; exact (hfit.small _ _ (.here _ _)).arcs a b q rfl)
      cases hc with
      | mk a b q _ h2 h3 _ =>
        refine ⟨.oid, _, _, rfl, rfl, by simp, rfl, .oid _ _ _ h1, rfl, fun _ => rfl, ⟨_, .objectIdentifier⟩, fun e he => ?_,
          .objectIdentifier a b q h2 h3 ((hfit.fits _ _ (.here _ _)).arcs a b q rfl)⟩
        cases he
        refine .oid _ ?_
        intro y hy n hn
        cases hy
        obtain ⟨m, hm, rfl⟩ := List.mem_map.1 hn
        exact (hfit.fits _ _ (.here _ _)).oid _ rfl m hm
  | string =>
    cases henc with
    | string _ tag ok enc q hk hq =>
      have : tag = 19 := by
        generalize hp : Tok.PrintableString = p at hk
        cases hk <;> first | rfl | exact absurd hp (by decide)
      subst this
      exact ⟨.string, .str q, .str q, rfl, rfl, by simp, rfl, .string _ _ _ (read_string hk (by decide) hq), rfl, fun _ => rfl, ⟨_, .restrictedString _⟩,
        fun e he => by cases he; exact .string _ (hpre _ (by decide)), .string _ _ _ _ _ hk hq⟩
  | constrained t y x _ ih =>
    cases henc with
    | constrained _ _ _ _ _ _ h =>
      obtain ⟨k, w, v, h1, h2, h3, h4, h5, h6, h10, ⟨e, h7⟩, h8, h9⟩ := ih h (readFits_part hfit fun _ _ => .constrained _ _ _ _ _)
      exact ⟨k, w, v, h1, h2, h3, h4, h5, h6, h10, ⟨e, .constrained _ _ _ h7⟩, fun e he => by cases he with | constrained _ _ _ he => exact h8 e he, .constrained _ _ _ _ h9⟩
  | ref a t x ha _ ih =>
    cases henc with
    | time _ h => exact absurd ha (h t)
    | ref _ t' _ _ _ _ h1 h =>
      cases assigned_unique ha h1
      obtain ⟨k, w, v, h1, h2, h3, h4, h5, h6, h10, ⟨e, h7⟩, h8, h9⟩ := ih h (readFits_part hfit fun _ _ => .ref _ _ _ _ _ ha)
      refine ⟨k, w, v, h1, h2, h3, h4, h5, h6, h10, ref_type ha h7, fun e he => ?_, .ref _ _ _ _ ha h9⟩
      obtain ⟨v', h11, rfl⟩ := write_ref cx ha (P := fun v' => v' = v) (fun v n hv => by rw [hv, h10]) (fun e he => ⟨v, h8 e he, rfl⟩) (.inl he)
      exact h11
  | only n t e x hna _ ih =>
    have hst := some_tagged (n := n) hna
    cases henc with
    | choice _ _ _ t' _ _ _ _ hm h =>
      simp only [List.mem_singleton, NamedType.mk.injEq, true_and] at hm
      subst hm
      obtain ⟨k, w, v, h1, h2, h3, h4, h5, h6, h10, ⟨e', h7⟩, h8, h9⟩ := ih h (readFits_part hfit fun _ _ => .choice _ _ _ _ _ _ _ hst (by simp))
      refine ⟨k, w, v, h1, h2, h3, h4, h5, h6, h10, ⟨e', .onlyChoice _ _ _ _ hna h7⟩, fun e he => ?_, .choice _ _ _ _ _ hna h9⟩
      cases he with
      | rawChoice _ _ h => exact absurd h hst
      | onlyChoice _ _ _ _ _ he => exact h8 e he
      | choice _ _ _ h => simp at h
  | several alts e n x hst hlen _ ih =>
    cases henc with
    | choice _ _ _ t _ _ _ _ hm h =>
      obtain ⟨k, w, v, h1, h2, h3, h4, h5, h6, h10, ⟨e', h7⟩, h8, h9⟩ := ih t hm h (readFits_part hfit fun _ _ => .choice _ _ _ _ _ _ _ hst hm)
      refine ⟨k, w, .iface w, h1, h2, h3, h4, h5, rfl, fun _ => rfl, ⟨_, .choice _ _ hst hlen⟩, fun e he => ?_, .alternative _ _ _ _ v _ _ hst hlen hm ⟨e', h7, h8 e' h7⟩ h6.symm h9⟩
      cases he with
      | rawChoice _ _ h => exact absurd h hst
      | onlyChoice _ _ _ _ _ _ => exact absurd rfl hlen
      | choice _ _ _ _ => rw [← h6]; exact boxed_typed (h8 e' h7) h9

theorem read_choice (cx : Ctx u l d r f true op s) (hpre : ∀ n ∈ predeclared, n ∉ declared f.decls) (hlim : op.Limited) (alts : List MNamed) (ext : List MTy) (n : Str) (t : MTy) (x : AsnVal) (tag : AsnTag) (comp : Bool) (c : Bytes)
    (hmem : NamedType.mk n t ∈ alts) (henc : Enc true l d t x tag comp c) (h : CoreRead u l d r f op s t x tag comp c) :
    CoreRead u l d r f op s (.choice alts ext) (.choice n x) tag comp c := by
  intro pos e p hok hmn hg hp hask hl
  by_cases hst : SomeTagged l alts
  · have henc' : Enc true l d (.choice alts ext) (.choice n x) tag comp c := .choice _ _ _ _ _ _ _ _ hmem henc
    have hnum := raw_number cx hlim hok hst henc'
    cases hg with
    | onlyChoice _ _ _ _ h _ => exact absurd hst (some_tagged h)
    | choice _ _ h _ => exact absurd hst h
    | rawChoice _ _ _ =>
      refine ⟨[], .raw, .raw, fun hm => by cases hm with | choice _ _ _ h _ => exact absurd hst (some_tagged h), fun m _ => ?_⟩
      by_cases hex : ∃ en, Encoding tag comp c en
      · obtain ⟨en, hen⟩ := hex
        exact ⟨.raw tag.cls tag.number comp (some c) (some en), _,
          .raw rfl (.raw _ _ hst) (enc_class henc) hnum fun en' hen' => by rw [encoding_unique hen hen'], .raw _ _ _ _ _ _ _ _ hst henc' fun _ => hen, .refl _ _,
          fun hz => by simp [GoVal.isZero] at hz⟩
      · exact ⟨.raw tag.cls tag.number comp (some c) none, _,
          .raw rfl (.raw _ _ hst) (enc_class henc) hnum fun en' hen' => absurd ⟨en', hen'⟩ hex, .raw _ _ _ _ _ _ _ _ hst henc' (by simp), .refl _ _,
          fun hz => by simp [GoVal.isZero] at hz⟩
  by_cases hlen : alts.length ≠ 1
  · have ho := (alts_several (choice_ok hok hst) hlen).1
    obtain ⟨k', w, v, h1, h2, h3, h4, h5, h6, -, ⟨e', h7⟩, h8, h9⟩ := read_any cx hpre ((hask.fits.ifaces ho).alternatives alts ext n x (.here _ _) hst hlen t hmem) henc
      (readFits_part hask.fits.toReadFits fun _ _ => .choice _ _ _ _ _ _ _ hst hmem)
    cases hg with
    | rawChoice _ _ h => exact absurd h hst
    | onlyChoice _ _ _ _ _ _ => exact absurd rfl hlen
    | choice _ _ _ _ =>
      refine ⟨[], .iface, .iface, fun hm => by cases hm with | choice _ _ _ _ _ => exact absurd rfl hlen, fun m _ => ⟨.iface w, _, ?_, ?_, .refl _ _, fun hz => ?_⟩⟩
      · exact .iface k' w rfl ho (.several _ _ hst hlen) h2 h3 h1 h4 h5 rfl
      · exact .alternative _ _ _ _ v _ _ hst hlen hmem ⟨e', h7, h8 e' h7⟩ h6.symm h9
      · simp [GoVal.isZero] at hz
  obtain ⟨hok', rfl⟩ : EncOk true op l d r s .element t ∧ alts = [.mk n t] := by
    replace hok := choice_ok hok hst
    clear hg hmn hp hask hst
    match alts, hok with
    | [.mk n' t'], h =>
      rw [EncOkOnly] at h
      simp only [List.mem_singleton, NamedType.mk.injEq] at hmem
      obtain ⟨rfl, rfl⟩ := hmem
      exact ⟨h, rfl⟩
    | [], h => simp [EncOkOnly] at h
    | .mk _ _ :: .mk _ _ :: _, h => simp at hlen
  have hn := params_neutral hp (by simp [core_iff, removeWrapperTypes]) (by simp [core_iff, removeWrapperTypes]) (by simp [core_iff, removeWrapperTypes])
    (by simp [core_iff, removeWrapperTypes])
  have hnm : ¬ MarksSet l (.choice [.mk n t] ext) := by
    intro hm
    cases hm with
    | choice _ _ _ _ hm => exact ok_not_marks hm hok'
  cases hg with
  | rawChoice _ _ h => exact absurd h hst
  | onlyChoice _ _ _ _ hna hg =>
    obtain ⟨n', k, h1, -, h2⟩ := h .element e p hok' (fun a b h => hmn a b (h.imp (.choice _ _ _ _ hna) (.choice _ _ _ _ hna))) hg (neutral_at hn (by decide))
      (ask_inside hask (fun _ h => .choice _ _ _ _ hna h) (fun _ _ h => .choice _ _ _ _ _ _ _ hst (by simp) h)) hl
    refine ⟨n', k, h1, fun h => absurd h hnm, fun m hm => ?_⟩
    obtain ⟨v, x', h5, h8, h9, h10⟩ := h2 m ⟨fun h => by simp at h, fun _ => hm.2 fun h => hnm h.2⟩
    exact ⟨v, .choice n x', h5.wrap (.alternative _ _ n t (by simp)) (.only _ _ _ hna), .choice _ _ _ _ _ hna h8, .choice _ _ _ t _ _ (by simp) h9,
      fun hz => .choice _ _ _ _ hna (h10 hz)⟩
  | choice _ _ _ h => simp at h

/-! ### Components -/

theorem field_of_core_read {t : MTy} {x : AsnVal} {tag : AsnTag} {comp : Bool} {c : Bytes} (h1 : ∀ g t' k b, t ≠ .tagged g t' k b)
    (h2 : ∀ t' c, t ≠ .constrained t' c) (h : CoreRead u l d r f op s t x tag comp c) : FieldRead u l d r f op s t x tag comp c := by
  intro e p o df hok hmn hg hp hask _ _ hl
  have hok' := tagged_core (.done t h1 h2) hok
  obtain ⟨n, k, h3, -, h4⟩ := h .component e p hok' hmn hg ⟨fun _ => kind_of hp, fun h => absurd rfl h⟩ hask hl
  obtain ⟨v, x', h5, h8, h9, h10⟩ := h4 n (nameAt_self (.inl (by decide)))
  obtain ⟨ht, he⟩ := meaning_plain hp (no_tags hok')
  exact ⟨v, x', fun en rest hen => h5.plain h3 ht he hen hl rest, h8, h9, h10⟩

theorem field_read_constrained (t : MTy) (y : Constraint DefinedValue (Value DefinedValue)) (x : AsnVal) (tag : AsnTag) (comp : Bool) (c : Bytes)
    (h : FieldRead u l d r f op s t x tag comp c) : FieldRead u l d r f op s (.constrained t y) x tag comp c := by
  intro e p o df hok hmn hg hp hask hnum hcl hl
  cases hg with
  | constrained _ _ _ hg =>
    obtain ⟨v, x', h1, h2, h3, h4⟩ := h e p o df (by simpa [EncOkTagged] using hok) (fun a b h => hmn a b (h.imp (.constrained _ _ _) (.constrained _ _ _))) hg
      (meaning_constrained hp) (ask_inside hask (fun _ h => .constrained _ _ _ h) (fun _ _ h => .constrained _ _ _ _ _ h)) hnum hcl hl
    exact ⟨v, x', h1, .constrained _ _ _ _ h2, .constrained _ _ _ _ h3, fun hz => .constrained _ _ _ (h4 hz)⟩

theorem field_read_explicit (cls : Int) (n : Nat) (t : MTy) (kind : Int) (b : Bool)
    (x : AsnVal) (tag : AsnTag) (comp : Bool) (c inner : Bytes) (hex : (if b then kind else d) = TAGS_EXPLICIT ∨ NoImplicit l t)
    (hin : Encoding tag comp c inner) (h : CoreRead u l d r f op s t x tag comp c) :
    FieldRead u l d r f op s (.tagged ⟨cls, .number n⟩ t kind b) x ⟨classOf cls, n⟩ true inner := by
  intro e p o df hok hmn hg hp hask hnum hcl hl
  rw [EncOkTagged] at hok
  obtain ⟨hcls, -, hkind, hnr, hok⟩ := hok
  have hk : (if b then kind else d) = TAGS_EXPLICIT := hkind.elim id fun hk => hex.elim id fun h => absurd h hk.2
  obtain ⟨htags, htag, hpe, hc1, hc2, hpa⟩ := meaning_tagged hcls hok hp
  have hm : ∀ {P : Int × Value DefinedValue × Int → Prop}, (∀ g ∈ tagsAround d (.tagged ⟨cls, .number n⟩ t kind b), P g) → P (cls, .number n, if b then kind else d) :=
    fun h => h _ (by rw [htags]; exact List.mem_singleton.2 rfl)
  cases hg with
  | tagged _ _ _ _ _ hg =>
    have hlen := encoding_length hin
    obtain ⟨tc, tn⟩ := tag
    obtain ⟨n', k, h3, -, h4⟩ := h .component e p hok (fun a b h => hmn a b (h.imp (.tagged _ _ _ _ _) (.tagged _ _ _ _ _))) hg hpa
      (ask_inside hask (fun _ h => .tagged _ _ _ _ _ h) (fun _ _ h => .tagged _ _ _ _ _ _ _ h)) (by omega)
    obtain ⟨v, x', h5, h8, h9, h10⟩ := h4 n' (nameAt_self (.inl (by decide)))
    cases h5 with
    | raw _ h5 _ _ _ => exact absurd h5 hnr
    | iface _ _ _ ho h5 => exact absurd h5 ((hask.fits.ifaces ho).untagged _ _ _ _ _ (.here _ _))
    | body tag0 h0 h30 h5 h6 h7 =>
    have hn : n ≤ 2147483647 := by exact_mod_cast hm hnum n rfl
    refine ⟨v, x', fun en rest hen => .element _ _ _ _ _ _ _ _ _ _ _ h3 h5 ?_ h7, .tagged _ _ _ _ _ _ h8, .tagged _ _ _ _ _ _ h9, fun hz => .tagged _ _ _ _ _ (h10 hz)⟩
    simp only at h0 h30
    subst h0
    exact found_explicit h6 htag (hpe.2 hk) (hc2 (hm hcl hk)) hin hen hn (by simp only; omega) hl rest

theorem field_read_implicit (cls : Int) (n : Nat) (t : MTy) (kind : Int) (b : Bool)
    (x : AsnVal) (tag : AsnTag) (comp : Bool) (c : Bytes) (hk : (if b then kind else d) = TAGS_IMPLICIT) (h : CoreRead u l d r f op s t x tag comp c) :
    FieldRead u l d r f op s (.tagged ⟨cls, .number n⟩ t kind b) x ⟨classOf cls, n⟩ comp c := by
  intro e p o df hok hmn hg hp hask hnum hcl hl
  rw [EncOkTagged] at hok
  obtain ⟨hcls, -, hkind, hnr, hok⟩ := hok
  obtain ⟨htags, htag, hpe, hc1, hc2, hpa⟩ := meaning_tagged hcls hok hp
  have hm : ∀ {P : Int × Value DefinedValue × Int → Prop}, (∀ g ∈ tagsAround d (.tagged ⟨cls, .number n⟩ t kind b), P g) → P (cls, .number n, if b then kind else d) :=
    fun h => h _ (by rw [htags]; exact List.mem_singleton.2 rfl)
  have hpf : p.explicit = false := by
    cases he : p.explicit with
    | false => rfl
    | true => rw [hpe, hk] at he; exact absurd he (by decide)
  cases hg with
  | tagged _ _ _ _ _ hg =>
    obtain ⟨n', k, h3, -, h4⟩ := h .component e p hok (fun a b h => hmn a b (h.imp (.tagged _ _ _ _ _) (.tagged _ _ _ _ _))) hg hpa
      (ask_inside hask (fun _ h => .tagged _ _ _ _ _ h) (fun _ _ h => .tagged _ _ _ _ _ _ _ h)) hl
    obtain ⟨v, x', h5, h8, h9, h10⟩ := h4 n' (nameAt_self (.inl (by decide)))
    cases h5 with
    | raw _ h5 _ _ _ => exact absurd h5 hnr
    | iface _ _ _ ho h5 => exact absurd h5 ((hask.fits.ifaces ho).untagged _ _ _ _ _ (.here _ _))
    | body tag0 h0 h30 h5 h6 h7 =>
    have hn : n ≤ 2147483647 := by exact_mod_cast hm hnum n rfl
    refine ⟨v, x', fun en rest hen => .element _ _ _ _ _ _ _ _ _ _ _ h3 h5 ?_ h7, .tagged _ _ _ _ _ _ h8, .tagged _ _ _ _ _ _ h9, fun hz => .tagged _ _ _ _ _ (h10 hz)⟩
    exact found_implicit h6 htag hpf hc1 hen hn hl rest

/-- The first component that is encoded. -/
theorem first_encoded {strict : Bool} {xs : List Member} {vs : List (Option AsnVal)} {tag : AsnTag} {en : Bytes} {es : List (AsnTag × Bytes)}
    (h : EncMembers strict l d xs vs ((tag, en) :: es)) : ∃ pre y post v k c, xs = pre ++ y :: post ∧ (∀ z ∈ pre, CanMiss z) ∧ Enc strict l d y.type v tag k c ∧
      Encoding tag k c en ∧ ∃ vs', EncMembers strict l d post vs' es := by
  induction xs generalizing vs with
  | nil => cases h
  | cons x xs ih =>
    cases h with
    | present _ v _ k c _ _ _ _ h1 h2 h3 h4 => exact ⟨[], x, xs, v, k, c, rfl, by simp, h1, h2, _, h4⟩
    | absent _ _ _ _ ho h4 =>
      obtain ⟨pre, y, post, v, k, c, rfl, h5, h6⟩ := ih h4
      exact ⟨x :: pre, y, post, v, k, c, rfl, List.forall_mem_cons.2 ⟨.inl ho, h5⟩, h6⟩
    | default _ _ dv _ _ _ hd _ h4 =>
      obtain ⟨pre, y, post, v, k, c, rfl, h5, h6⟩ := ih h4
      exact ⟨x :: pre, y, post, v, k, c, rfl, List.forall_mem_cons.2 ⟨.inr (by rw [hd]; simp), h5⟩, h6⟩

theorem some_encoded {strict : Bool} {xs : List Member} {vs : List (Option AsnVal)} {es : List (AsnTag × Bytes)} (h : EncMembers strict l d xs vs es)
    {z : Member} (hz : z ∈ xs) (hn : ¬ CanMiss z) : es.flatMap Prod.snd ≠ [] := by
  induction xs generalizing vs es with
  | nil => cases hz
  | cons x xs ih =>
    have step : ∀ {vs es}, EncMembers strict l d xs vs es → CanMiss x → es.flatMap Prod.snd ≠ [] := by
      intro vs es h hx
      rcases List.mem_cons.1 hz with rfl | hz
      · exact absurd hx hn
      · exact ih h hz
    cases h with
    | present _ v tag k c e _ _ _ h1 h2 h3 h4 => simp [encoding_ne h2]
    | absent _ _ _ _ ho h4 => exact step h4 (.inl ho)
    | default _ _ dv _ _ _ hd _ h4 => exact step h4 (.inr (by rw [hd]; simp))

/-- A component without encoding is found to be missing. -/
theorem found_missing (cx : Ctx u l d r f true op s) (hlim : op.Limited) {x : Member} {xs : List Member} {vs : List (Option AsnVal)}
    {es : List (AsnTag × Bytes)} (hall : ∀ y ∈ x :: xs, AskMember u l d r op s y) (hm : CanMiss x) (ht : Told l d (x :: xs)) (h : EncMembers true l d xs vs es)
    (hl : (es.flatMap Prod.snd).length < 2147483648) {p : FieldParams} {n : Str} {k : GoKind} (hmiss : Misses l d x.type p n k) (hnil : Lacks p n k []) :
    Lacks p n k (es.flatMap Prod.snd) := by
  cases es with
  | nil => exact hnil
  | cons q es =>
    obtain ⟨g, en⟩ := q
    obtain ⟨pre, y, post, v, k', c, rfl, h1, h2, h3, vs', h4⟩ := first_encoded h
    obtain ⟨h5, h6⟩ := ht.1 hm pre y post rfl h1 v g k' c h2
    have hy := hall y (by simp)
    obtain ⟨h7, h8⟩ := field_tag cx hlim hy.ok hy.numbers h2
    have hlen := encoding_length h3
    rw [List.flatMap_cons, List.length_append] at hl
    simp only at hl
    rw [List.flatMap_cons]
    refine hmiss g k' c en _ h3 h7 h8 (by omega) h5 fun he => ⟨(hall x (by simp)).classes, ?_⟩
    rcases h6 he with h9 | ⟨z, hz, hnz⟩
    · simp [h9]
    · have := some_encoded h4 hz hnz
      simp only [ne_eq, List.append_eq_nil_iff, not_and_or]
      exact .inr this

theorem members_read_nil : MembersRead u l d r f op s [] [] [] := by
  intro fds _ _ _ hf _
  cases hf
  exact ⟨[], [], .nil _, .nil, .nil, fun _ => .nil⟩

theorem members_read_present (y : Member) (x : AsnVal) (tag : AsnTag) (comp : Bool) (c en : Bytes) (xs : List Member) (vs : List (Option AsnVal))
    (es : List (AsnTag × Bytes)) (hen : Encoding tag comp c en) (ih1 : FieldRead u l d r f op s y.type x tag comp c) (ih2 : MembersRead u l d r f op s xs vs es) :
    MembersRead u l d r f op s (y :: xs) (some x :: vs) ((tag, en) :: es) := by
  intro fds hall ht hv hf hl
  cases hf with
  | cons _ _ e tg fds hg htag hf =>
    have hy := hall y (by simp)
    obtain ⟨h1, h2, h3⟩ := hv y x (by simp)
    have hlen := encoding_length hen
    rw [List.flatMap_cons, List.length_append] at hl
    simp only at hl
    obtain ⟨v, x', h4, h5, h6, h7⟩ := ih1 e _ _ _ hy.ok hy.named hg (htag.meaning (tags_goInt hy.ok) (default_goInt hy.default))
      ⟨h1, hy.zero, h2, hy.readable⟩ hy.numbers hy.classes (by omega)
    obtain ⟨ws, vs', h8, h9, h10, h11⟩ := ih2 fds (fun z hz => hall z (by simp [hz])) ht.2 (fun z w hz => hv z w (by simp [hz])) hf (by omega)
    rw [List.flatMap_cons]
    refine ⟨_, _, .cons _ _ _ _ _ _ _ _ _ (exported_goify hy.lower) (h4 en _ hen) h8, .present _ _ _ _ _ _ _ _ (fun ho => ?_) h5 h9, .present _ _ _ _ _ _ h6 h10, fun hz => ?_⟩
    · cases hvz : v.isZero with
      | false => rfl
      | true => exact absurd (h7 hvz) (h3 ho)
    · rw [fieldsZero, Bool.and_eq_true] at hz
      exact .present _ _ _ _ (h7 hz.1) (h11 hz.2)

theorem setDefault_none {p : FieldParams} (h : p.dflt = none) (z : GoVal) : setDefault p z = z := by
  cases z <;> simp [setDefault, h]

theorem members_read_absent (cx : Ctx u l d r f true op s) (hlim : op.Limited) (hpre : ∀ n ∈ predeclared, n ∉ declared f.decls) (y : Member) (xs : List Member) (vs : List (Option AsnVal))
    (es : List (AsnTag × Bytes)) (ho : y.optional = true) (henc : EncMembers true l d xs vs es) (ih2 : MembersRead u l d r f op s xs vs es) :
    MembersRead u l d r f op s (y :: xs) (none :: vs) es := by
  intro fds hall ht hv hf hl
  cases hf with
  | cons _ _ e tg fds hg htag hf =>
    have hy := hall y (by simp)
    have hp := htag.meaning (tags_goInt hy.ok) (default_goInt hy.default)
    have hdn : y.default = none := by
      cases hd : y.default with
      | none => rfl
      | some dv => have := (hy.default dv hd).1; rw [ho] at this; cases this
    have hpd : (fieldParams tg).dflt = none := by
      cases hpd : (fieldParams tg).dflt with
      | none => rfl
      | some m => have := (hp.dflt m).1 hpd; rw [hdn] at this; cases this
    obtain ⟨n, k, z, h1, h3, h4, h5, h6⟩ := (zero_aux cx hpre (hy.optional ho)).2 e _ _ _ hy.ok hg hp
    obtain ⟨ws, vs', h8, h9, h10, h11⟩ := ih2 fds (fun z hz => hall z (by simp [hz])) ht.2 (fun z w hz => hv z w (by simp [hz])) hf hl
    have hread := Decodes.missing (f := f) (u := u) e _ _ n k z h1 (found_missing cx hlim hall (.inl ho) ht henc hl h5 h6) (hp.optional.2 (.inl ho)) h3
    rw [setDefault_none hpd] at hread
    refine ⟨_, _, .cons _ _ _ _ _ _ _ _ _ (exported_goify hy.lower) hread h8, .absent _ _ _ _ _ _ _ ho h4 h9, .absent _ _ _ _ h10, fun hz => ?_⟩
    rw [fieldsZero, Bool.and_eq_true] at hz
    exact .absent _ _ _ (h11 hz.2)

theorem blank_core {t c : MTy} {x : AsnVal} (hc : Core t c) (h : Blank l r c x) : Blank l r t x := by
  induction hc with
  | tagged g t c k b _ ih => exact .tagged _ _ _ _ _ (ih h)
  | constrained t c y _ ih => exact .constrained _ _ _ (ih h)
  | done t _ _ => exact h

theorem blank_typeIs {t c : MTy} {x : AsnVal} (ht : TypeIs l t c) (h : Blank l r c x) : Blank l r t x := by
  induction ht with
  | core t c hc _ => exact blank_core hc h
  | ref t t' c a hc ha _ ih => exact blank_core hc (.ref _ _ _ ha (ih h))

theorem members_read_default (cx : Ctx u l d r f true op s) (hlim : op.Limited) (hpre : ∀ n ∈ predeclared, n ∉ declared f.decls) (y : Member) (x : AsnVal) (dv : Value DefinedValue)
    (xs : List Member) (vs : List (Option AsnVal)) (es : List (AsnTag × Bytes)) (hd : y.default = some dv) (hdi : DefaultIs l y.type dv x)
    (henc : EncMembers true l d xs vs es) (ih2 : MembersRead u l d r f op s xs vs es) : MembersRead u l d r f op s (y :: xs) (some x :: vs) es := by
  intro fds hall ht hv hf hl
  cases hf with
  | cons _ _ e tg fds hg htag hf =>
    have hy := hall y (by simp)
    have hp := htag.meaning (tags_goInt hy.ok) (default_goInt hy.default)
    obtain ⟨hno, a0, h1, h2, h3, h4⟩ := hy.default dv hd
    have := h2 x hdi
    subst this
    have h4 := h4 rfl
    have hcm : CanMiss y := .inr (by rw [hd]; simp)
    obtain ⟨ws, vs', h8, h9, h10, h11⟩ := ih2 fds (fun z hz => hall z (by simp [hz])) ht.2 (fun z w hz => hv z w (by simp [hz])) hf hl
    have key : ∀ {Q : GoVal → Prop}, FieldZero u l d r f true op s Q y.type → ∃ z, Q z ∧ Decodes f u e (fieldParams tg) (es.flatMap Prod.snd)
        (setDefault (fieldParams tg) z) (es.flatMap Prod.snd) := by
      intro Q hz
      obtain ⟨n, k, z, h1, h3, h4, h5, h6⟩ := hz e _ _ _ hy.ok hg hp
      exact ⟨z, h4, .missing e _ _ n k z h1 (found_missing cx hlim hall hcm ht henc hl h5 h6) (hp.optional.2 (.inr (by rw [hd]; simp))) h3⟩
    have fin : ∀ v, Decodes f u e (fieldParams tg) (es.flatMap Prod.snd) v (es.flatMap Prod.snd) → Means l (held true u l d r f) y.type v x → (v.isZero = true → Blank l r y.type x) →
        ∃ ws vs', ReadsFields f u (.mk (goifyName u y.name) e tg :: fds) (es.flatMap Prod.snd) ws [] ∧ MeansMembers l (held true u l d r f) (y :: xs) ws vs' ∧
          SameMembers l (y :: xs) (some x :: vs) vs' ∧ (fieldsZero ws = true → BlankMembers l r (y :: xs) (some x :: vs)) := by
      intro v hr hm hb
      refine ⟨_, _, .cons _ _ _ _ _ _ _ _ _ (exported_goify hy.lower) hr h8, .present _ _ _ _ _ _ _ _ (fun ho => by rw [hno] at ho; cases ho) hm h9,
        .present _ _ _ _ _ _ (.refl _ _) h10, fun hz => ?_⟩
      rw [fieldsZero, Bool.and_eq_true] at hz
      exact .present _ _ _ _ (hb hz.1) (h11 hz.2)
    have hint : ∀ n nums, TypeIs l y.type (.integer nums) → x = .integer n → (fieldParams tg).dflt.getD 0 = n →
        ∃ ws vs', ReadsFields f u (.mk (goifyName u y.name) e tg :: fds) (es.flatMap Prod.snd) ws [] ∧ MeansMembers l (held true u l d r f) (y :: xs) ws vs' ∧
          SameMembers l (y :: xs) (some x :: vs) vs' ∧ (fieldsZero ws = true → BlankMembers l r (y :: xs) (some x :: vs)) := by
      rintro n nums hti rfl hn
      have hr : r = c! "int64" := h4.resolve_right (by simp)
      have hz0 := core_zero_integer (u := u) (l := l) (d := d) (r := r) (f := f) (strict := true) (op := op) (s := s) (Q := fun z => z = .int 0) hpre nums rfl
        fun h => absurd hr h
      obtain ⟨z, rfl, hread⟩ := key (zero_typeIs cx hti ⟨hz0, field_zero_of_core (by simp) (by simp) hz0⟩).2
      rw [setDefault, hn] at hread
      refine fin _ hread (means_of_typeIs hti (.integer _ _)) fun hz => blank_typeIs hti ?_
      have : n = 0 := by simpa [GoVal.isZero] using hz
      subst this
      exact .integer _ hr
    have hdn : ∀ {w : Value DefinedValue}, y.default = some w → (∀ n, w ≠ .number n) → (fieldParams tg).dflt.getD 0 = 0 := by
      intro w hw hne
      cases hpd : (fieldParams tg).dflt with
      | none => rfl
      | some m => have := (hp.dflt m).1 hpd; rw [hw] at this; cases this; exact absurd rfl (hne m)
    cases hdi with
    | number n nums hti => exact hint n nums hti rfl (by rw [(hp.dflt n).2 hd]; rfl)
    | boolean b hti =>
      have hb : b = false := by
        rcases h3 with ⟨m, h, -⟩ | h | ⟨h, -⟩
        · cases h
        · cases h; rfl
        · cases h
      subst hb
      have hz0 := core_zero_boolean (u := u) (l := l) (d := d) (r := r) (f := f) (strict := true) (op := op) (s := s) (Q := fun z => z = .bool false) hpre rfl
      obtain ⟨z, rfl, hread⟩ := key (zero_typeIs cx hti ⟨hz0, field_zero_of_core (by simp) (by simp) hz0⟩).2
      exact fin _ hread (means_of_typeIs hti (.boolean _)) fun _ => blank_typeIs hti .boolean
    | named w n nums hti hmem =>
      have hn : n = 0 := by
        rcases h3 with ⟨m, h, -⟩ | h | ⟨h, -⟩
        · cases h
        · cases h
        · cases h; rfl
      exact hint n nums hti rfl (by rw [hn]; exact hdn hd (by simp))
    | defined w n nums hti hmem =>
      have hn : n = 0 := by
        rcases h3 with ⟨m, h, -⟩ | h | ⟨h, -⟩
        · cases h
        · cases h
        · cases h; rfl
      exact hint n nums hti rfl (by rw [hn]; exact hdn hd (by simp))

end Asn1go.Deco
