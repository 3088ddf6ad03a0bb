import Verif.Spec.Print
import Mathlib.Data.List.Forall2

/-! What is printed is notation for what was printed. -/

namespace Asn1go.Print

open Asn1go Spec Spec.Notation Spec.Print

section lists

variable {α : Type} {X : List Token → α → Prop} {T : List Token → List α → Prop}

theorem sep_cons (code : Int) : ∀ (b : List Token) (bs : List (List Token)), sep code (b :: bs) = b ++ (bs.map (kw code :: ·)).flatten
  | b, [] => by simp [sep]
  | b, c :: l => by simp [sep, sep_cons code c l]

/-- Lists with separators, built from the front. -/
theorem sep_list (code : Int) (one : ∀ a x, X a x → T a [x])
    (snoc : ∀ a b l x, T a l → X b x → T (a ++ kw code :: b) (l ++ [x]))
    {bs : List (List Token)} {l : List α} (h : List.Forall₂ X bs l) (hn : bs ≠ []) : T (sep code bs) l := by
  have acc : ∀ {bs l'}, List.Forall₂ X bs l' → ∀ a l, T a l → T (a ++ (bs.map (kw code :: ·)).flatten) (l ++ l') := by
    intro bs l' h
    induction h with
    | nil => intro a l h; simpa using h
    | cons hx _ ih =>
      intro a l h
      have := ih _ _ (snoc _ _ _ _ h hx)
      simpa using this
  cases h with
  | nil => exact absurd rfl hn
  | cons hx h =>
    rw [sep_cons]
    exact acc h _ _ (one _ _ hx)

/-- Lists without separators, built from the front. -/
theorem flat_list (one : ∀ a x, X a x → T a [x]) (snoc : ∀ a b l x, T a l → X b x → T (a ++ b) (l ++ [x]))
    {bs : List (List Token)} {l : List α} (h : List.Forall₂ X bs l) (hn : l ≠ []) : T bs.flatten l := by
  have acc : ∀ {bs l'}, List.Forall₂ X bs l' → ∀ a l, T a l → T (a ++ bs.flatten) (l ++ l') := by
    intro bs l' h
    induction h with
    | nil => intro a l h; simpa using h
    | cons hx _ ih =>
      intro a l h
      have := ih _ _ (snoc _ _ _ _ h hx)
      simpa using this
  cases h with
  | nil => exact absurd rfl hn
  | cons hx h => exact acc h _ _ (one _ _ hx)

/-- Lists without separators, built from the back. -/
theorem flat_list' (one : ∀ a x, X a x → T a [x]) (cons : ∀ a b x l, X a x → T b l → T (a ++ b) (x :: l))
    {bs : List (List Token)} {l : List α} (h : List.Forall₂ X bs l) (hn : l ≠ []) : T bs.flatten l := by
  induction h with
  | nil => exact absurd rfl hn
  | @cons b x bs l hx h ih =>
    cases h with
    | nil => simpa using one _ _ hx
    | cons hx' h => exact cons _ _ _ _ hx (ih (by simp))

/-- Lists with separators, built from the back. -/
theorem sep_list' (code : Int) (one : ∀ a x, X a x → T a [x]) (cons : ∀ a b x l, X a x → T b l → T (a ++ kw code :: b) (x :: l))
    {bs : List (List Token)} {l : List α} (h : List.Forall₂ X bs l) (hn : bs ≠ []) : T (sep code bs) l := by
  induction h with
  | nil => exact absurd rfl hn
  | @cons b x bs l hx h ih =>
    cases h with
    | nil => simpa [sep] using one _ _ hx
    | cons hx' h => exact cons _ _ _ _ hx (ih (by simp))

theorem all_sound {f : α → Option (List Token)} (hf : ∀ x a, f x = some a → X a x) :
    ∀ {l : List α} {bs : List (List Token)}, all f l = some bs → List.Forall₂ X bs l
  | [], bs, h => by
    simp only [all, Option.some.injEq] at h
    subst h
    exact .nil
  | x :: l, bs, h => by
    simp only [all, Option.bind_eq_some_iff, Option.some.injEq] at h
    obtain ⟨a, ha, b, hb, rfl⟩ := h
    exact .cons (hf _ _ ha) (all_sound hf hb)

end lists

theorem natural_sound {n : Int} {t : Token} (h : natural n = some t) : ∃ (r : Str) (k : Nat), t = num r k ∧ n = k := by
  simp only [natural] at h
  split at h
  · next h0 =>
    simp only [Option.some.injEq] at h
    exact ⟨_, _, h.symm, by omega⟩
  · exact absurd h (by simp)

theorem signed_sound (n : Int) : SignedText (signed n) n := by
  unfold signed
  split
  · next h =>
    have := SignedText.neg (natStr n.natAbs) n.natAbs
    have e : -((n.natAbs : Nat) : Int) = n := by omega
    rwa [e] at this
  · next h =>
    have := SignedText.pos (natStr n.natAbs) n.natAbs
    have e : ((n.natAbs : Nat) : Int) = n := by omega
    rwa [e] at this

theorem exponent_sound (n : Int) : ExponentText (signed n) n := by
  generalize ha : signed n = a
  have := signed_sound n
  rw [ha] at this
  cases this with
  | pos r k => exact .pos r k
  | neg r k => exact .neg r k

theorem defined_sound (d : DefinedValue) : DefinedText (defined d) d := by
  obtain ⟨m, v⟩ := d
  unfold defined
  split
  · next h =>
    simp only at h
    subst h
    exact .plain v
  · exact .ext m v

theorem namedNumber_sound (x : NamedNumber) (a : List Token) (h : namedNumber x = some a) : NamedNumberText a x := by
  obtain ⟨s, v⟩ := x
  cases v <;> simp only [namedNumber, Option.some.injEq, reduceCtorEq] at h
  · subst h; exact .number _ _ _ (signed_sound _)
  · subst h; exact .defined _ _ _ (defined_sound _)

theorem enumItem_sound (x : EnumerationItem) (a : List Token) (h : enumItem x = some a) : EnumItemText a x := by
  cases x <;> simp only [enumItem, Option.some.injEq, reduceCtorEq] at h
  · exact .number _ _ (namedNumber_sound _ _ h)
  · subst h; exact .name _

theorem literal_sound {x : GoReal} {a : List Token} (h : literal x = some a) : RealText a x := by
  cases x <;> simp only [literal, Option.some.injEq, reduceCtorEq, Option.bind_eq_some_iff] at h
  obtain ⟨b, hb, c, hc, rfl⟩ := h
  obtain ⟨r, k, rfl, rfl⟩ := natural_sound hb
  obtain ⟨s, j, rfl, rfl⟩ := natural_sound hc
  split
  · next h0 => subst h0; exact .fraction _ _ _ _
  · exact .both _ _ _ _ _ _ (exponent_sound _)

theorem oidElement_sound {e : ObjectIdElement DefinedValue} {a : List Token} (h : oidElement e = some a) :
    OidElementText Links.written a e := by
  obtain ⟨s, i, r⟩ := e
  cases r <;> simp only [oidElement, Option.bind_eq_some_iff, Option.some.injEq] at h
  · obtain ⟨b, hb, rfl⟩ := h
    obtain ⟨r, k, rfl, rfl⟩ := natural_sound hb
    split
    · next h0 => subst h0; exact .number _ _
    · exact .nameNumber _ _ _
  · split at h
    · next h0 =>
      obtain ⟨rfl, h1⟩ := h0
      simp only [Option.some.injEq] at h
      subst h
      exact .nameDefined _ _ _ (defined_sound _)
    · exact absurd h (by simp)

theorem oidComponent_sound (e : ObjectIdElement DefinedValue) (a : List Token) (h : oidComponent e = some a) :
    OidComponentText Links.written a e := by
  obtain ⟨s, i, r⟩ := e
  cases r with
  | none => exact .element _ _ (oidElement_sound h)
  | some d =>
    simp only [oidComponent] at h
    split at h
    · next h0 =>
      obtain ⟨rfl, rfl⟩ := h0
      simp only [Option.some.injEq] at h
      subst h
      exact .defined _ _ (defined_sound _)
    · exact .element _ _ (oidElement_sound h)

theorem oid_sound {simple : Bool} {l : List (ObjectIdElement DefinedValue)} {a : List Token} (h : oid simple l = some a) :
    OidText Links.written simple a l := by
  match l, h with
  | [], h => simp [oid] at h
  | [e], h =>
    simp only [oid, Option.bind_eq_some_iff, Option.some.injEq] at h
    obtain ⟨b, hb, rfl⟩ := h
    exact .one _ _ (oidComponent_sound _ _ hb)
  | e :: f :: l, h =>
    simp only [oid, Option.bind_eq_some_iff, Option.some.injEq] at h
    obtain ⟨b, hb, c, hc, rfl⟩ := h
    have hr : OidComponentsText Links.written c.flatten (f :: l) :=
      flat_list' .one .cons (all_sound oidComponent_sound hc) (by simp)
    have e1 : braces (b ++ c.flatten) = kw Tok.OPEN_CURLY :: (b ++ (c.flatten ++ [kw Tok.CLOSE_CURLY])) := by simp [braces]
    rw [e1]
    cases simple with
    | true => exact .many _ _ _ _ (oidElement_sound hb) hr
    | false =>
      have hc := oidComponent_sound _ _ hb
      cases hc with
      | element _ he => exact .many _ _ _ _ he hr
      | defined d hd => exact .head _ _ _ _ rfl hd hr

theorem value_sound {simple : Bool} {v : Value DefinedValue} {a : List Token} (h : value simple v = some a) :
    ValueText Links.written simple a v := by
  cases v with
  | nil => simp [value] at h
  | defined => simp [value] at h
  | number n =>
    simp only [value, Option.some.injEq] at h
    subst h
    exact .number _ _ (signed_sound _)
  | boolean b =>
    simp only [value, Option.some.injEq] at h
    subst h
    cases b
    · exact .false
    · exact .true
  | identifiedInteger s =>
    simp only [value, Option.some.injEq] at h
    subst h
    exact .name _
  | objectIdentifier l => exact .oid _ _ (oid_sound h)
  | real x =>
    cases x with
    | lit => exact .real _ _ (literal_sound h)
    | neg y =>
      simp only [value, real, Option.bind_eq_some_iff, Option.some.injEq] at h
      obtain ⟨b, hb, rfl⟩ := h
      exact .minusReal _ _ (literal_sound hb)
    | posInf =>
      simp only [value, real, Option.some.injEq] at h
      subst h
      exact .plusInfinity
    | negInf =>
      simp only [value, real, Option.some.injEq] at h
      subst h
      exact .minusInfinity

theorem namedBit_sound (x : NamedBit DefinedValue) (a : List Token) (h : namedBit x = some a) : NamedBitText a x := by
  obtain ⟨s, v⟩ := x
  cases v <;> simp only [namedBit, Option.some.injEq, reduceCtorEq, Option.bind_eq_some_iff] at h
  · obtain ⟨b, hb, rfl⟩ := h
    obtain ⟨r, k, rfl, rfl⟩ := natural_sound hb
    exact .number _ _ _
  · subst h; exact .defined _ _ _ (defined_sound _)

theorem cls_sound {c : Int} {a : List Token} (h : cls c = some a) : ClassText a c := by
  unfold cls at h
  split at h
  · next h0 => subst h0; simp only [Option.some.injEq] at h; subst h; exact .context
  split at h
  · next h0 => subst h0; simp only [Option.some.injEq] at h; subst h; exact .universal
  split at h
  · next h0 => subst h0; simp only [Option.some.injEq] at h; subst h; exact .application
  split at h
  · next h0 => subst h0; simp only [Option.some.injEq] at h; subst h; exact .privateClass
  · simp at h

theorem tag_sound {t : Tag DefinedValue} {a : List Token} (h : tag t = some a) : TagText a t := by
  obtain ⟨c, v⟩ := t
  cases v <;> simp only [tag, Option.some.injEq, reduceCtorEq, Option.bind_eq_some_iff, and_false, exists_false] at h
  · obtain ⟨b, hb, d, hd, rfl⟩ := h
    obtain ⟨r, k, rfl, rfl⟩ := natural_sound hd
    exact .number _ _ _ _ (cls_sound hb)
  · obtain ⟨b, hb, rfl⟩ := h
    exact .defined _ _ _ _ (cls_sound hb) (defined_sound _)

theorem tagging_sound {i : Int} {x : Bool} {a : List Token} (h : tagging i x = some a) : TaggingText a i x := by
  unfold tagging at h
  split at h
  · next h1 =>
    subst h1
    split at h
    · next h0 => subst h0; simp only [Option.some.injEq] at h; subst h; exact .implicit
    split at h
    · next h0 => subst h0; simp only [Option.some.injEq] at h; subst h; exact .explicit
    · simp at h
  · next h1 =>
    simp only [Bool.not_eq_true] at h1
    subst h1
    split at h
    · next h0 => subst h0; simp only [Option.some.injEq] at h; subst h; exact .none
    · simp at h

theorem lower_sound {simple : Bool} {v : Value DefinedValue} {a : List Token} (h : bound simple Tok.MIN v = some a) :
    LowerText Links.written simple a v := by
  cases v with
  | nil => simp only [bound, Option.some.injEq] at h; subst h; exact .min
  | _ => exact .value _ _ (value_sound (by simpa [bound] using h))

theorem upper_sound {simple : Bool} {v : Value DefinedValue} {a : List Token} (h : bound simple Tok.MAX v = some a) :
    UpperText Links.written simple a v := by
  cases v with
  | nil => simp only [bound, Option.some.injEq] at h; subst h; exact .max
  | _ => exact .value _ _ (value_sound (by simpa [bound] using h))

theorem range_sound {simple : Bool} {v w : RangeEndpoint DefinedValue} {a : List Token} (h : range simple v w = some a) :
    RangeText Links.written simple a v w := by
  obtain ⟨v, o⟩ := v
  obtain ⟨w, p⟩ := w
  simp only [range, Option.bind_eq_some_iff, Option.some.injEq] at h
  obtain ⟨b, hb, c, hc, rfl⟩ := h
  cases o <;> cases p
  · exact .closed _ _ _ _ (lower_sound hb) (upper_sound hc)
  · exact .openUpper _ _ _ _ (lower_sound hb) (upper_sound hc)
  · exact .openLower _ _ _ _ (lower_sound hb) (upper_sound hc)
  · exact .openBoth _ _ _ _ (lower_sound hb) (upper_sound hc)

theorem typeName_sound (simple c : Bool) (s : Str) : TypeText (D := DD) Links.written simple c [typeName s] (.ref s) := by
  unfold typeName
  split
  · next h => subst h; exact .generalizedTime _
  split
  · next h => subst h; exact .utcTime _
  · exact .ref _ _

theorem nonempty_sound {α : Type} {l m : List α} (h : nonempty l = some m) : m = l ∧ l ≠ [] := by
  unfold nonempty at h
  split at h
  · simp at h
  · next h0 => exact ⟨by simpa using h.symm, by simpa using h0⟩

theorem forall2_ne {α : Type} {X : List Token → α → Prop} {bs : List (List Token)} {l : List α} (h : List.Forall₂ X bs l) :
    bs ≠ [] ↔ l ≠ [] := by cases h <;> simp

theorem forall2_empty {α : Type} {X : List Token → α → Prop} {bs : List (List Token)} {l : List α} (h : List.Forall₂ X bs l) :
    bs.isEmpty = l.isEmpty := by cases h <;> simp

theorem body_sound {simple : Bool} {l e : List (ComponentType DV DD)} {a b : List (List Token)} {d : List Token}
    (ha : List.Forall₂ (ComponentText Links.written simple) a l) (hb : List.Forall₂ (ComponentText Links.written simple) b e)
    (h : body a b = some d) : BodyText Links.written simple d l e := by
  have hc : ∀ {bs : List (List Token)} {l : List (ComponentType DV DD)}, List.Forall₂ (ComponentText Links.written simple) bs l → bs ≠ [] →
      ComponentsText Links.written simple (commas bs) l := fun h hn => sep_list _ .one .snoc h hn
  have hd : ∀ {bs : List (List Token)} {l : List (ComponentType DV DD)}, List.Forall₂ (ComponentText Links.written simple) bs l → bs ≠ [] →
      AdditionsText Links.written simple (commas bs) l :=
    fun h hn => sep_list _ (fun _ _ h => .one _ _ (.component _ _ h)) (fun _ _ _ _ h h' => .snoc _ _ _ _ h (.component _ _ h')) h hn
  cases ha with
  | nil =>
    cases hb with
    | nil => simp only [body, Option.some.injEq] at h; subst h; exact .empty
    | cons => simp [body] at h
  | cons hx ha =>
    have ha := List.Forall₂.cons hx ha
    cases hb with
    | nil => simp only [body, Option.some.injEq] at h; subst h; exact .components _ _ (hc ha (by simp))
    | cons hy hb =>
      simp only [body, Option.some.injEq] at h; subst h
      have := BodyText.extended (L := Links.written) (simple := simple) _ [] _ _ _ (hc ha (by simp)) .none (hd (.cons hy hb) (by simp))
      simpa using this

theorem alternatives_sound {simple : Bool} (c : Bool) {l : List (NamedType DV DD)} {e : List (Ty DV DD)} {a b : List (List Token)}
    (ha : List.Forall₂ (NamedTypeText Links.written simple) a l)
    (hb : ∃ e', e = e'.map .named ∧ List.Forall₂ (NamedTypeText Links.written simple) b e') :
    TypeText Links.written simple c (kw Tok.CHOICE :: braces (alternatives a b)) (.choice l e) := by
  have hc : ∀ {bs : List (List Token)} {l : List (NamedType DV DD)}, List.Forall₂ (NamedTypeText Links.written simple) bs l → bs ≠ [] →
      NamedTypesText Links.written simple (commas bs) l := fun h hn => sep_list _ .one .snoc h hn
  obtain ⟨e', rfl, hb⟩ := hb
  cases ha with
  | nil =>
    cases hb with
    | nil => exact .choiceOpen (L := Links.written) (simple := simple) _ [] [] [] .none .none
    | cons hy hb => exact .choiceOpen (L := Links.written) (simple := simple) _ [] _ _ .none (.some _ _ (hc (.cons hy hb) (by simp)))
  | cons hx ha =>
    have ha := List.Forall₂.cons hx ha
    cases hb with
    | nil => exact .choice _ _ _ (hc ha (by simp))
    | cons hy hb =>
      have := TypeText.choiceMore (L := Links.written) (simple := simple) c _ [] _ _ _ (hc ha (by simp)) .none
        (.some _ _ (hc (.cons hy hb) (by simp)))
      simpa [braces, alternatives] using this

/-- Notation for a type at a place. -/
def PlaceText (simple : Bool) : Place → List Token → Ty DV DD → Prop
  | .constrained => TypeText Links.written simple true
  | .element => ElementTypeText Links.written simple
  | .other => TypeText Links.written simple false

theorem place_of {simple : Bool} {c : Place} {a : List Token} {t : Ty DV DD} (h : ∀ c, TypeText Links.written simple c a t) :
    PlaceText simple c a t := by
  cases c
  · exact h true
  · exact .type _ _ (h false)
  · exact h false

theorem open_of {simple : Bool} {c : Place} {a : List Token} {t : Ty DV DD} (hc : c ≠ .constrained) (h : TypeText Links.written simple false a t) :
    PlaceText simple c a t := by
  cases c
  · exact absurd rfl hc
  · exact .type _ _ h
  · exact h

mutual

theorem type_sound (simple : Bool) : ∀ (c : Place) (t : Ty DV DD) (a : List Token), type simple c t = some a → PlaceText simple c a t
  | c, .nil, a, h => by simp [type] at h
  | c, .null, a, h => by simp only [type, Option.some.injEq] at h; subst h; exact place_of fun _ => (.null _)
  | c, .objectIdentifier, a, h => by simp only [type, Option.some.injEq] at h; subst h; exact place_of fun _ => (.objectIdentifier _)
  | c, .integer l, a, h => by
    simp only [type, Option.bind_eq_some_iff, Option.some.injEq] at h
    obtain ⟨b, hb, rfl⟩ := h
    have hf := all_sound namedNumber_sound hb
    cases hf with
    | nil => exact place_of fun _ => (.integer _)
    | cons hx hf => exact place_of fun _ => (.integerNames _ _ _ (sep_list _ .one .snoc (.cons hx hf) (by simp)))
  | c, .enumerated l e, a, h => by
    simp only [type, Option.bind_eq_some_iff] at h
    obtain ⟨_, hn, b, hb, h⟩ := h
    obtain ⟨rfl, hn⟩ := nonempty_sound hn
    split at h
    · next he =>
      simp only [Option.some.injEq] at h
      subst h
      simp only [List.isEmpty_iff] at he
      subst he
      have hf := all_sound enumItem_sound hb
      exact place_of fun _ => (.enumerated _ _ _ (sep_list' _ .one .cons hf ((forall2_ne hf).2 hn)))
    · simp at h
  | c, .real, a, h => by simp only [type, Option.some.injEq] at h; subst h; exact place_of fun _ => (.real _)
  | c, .boolean, a, h => by simp only [type, Option.some.injEq] at h; subst h; exact place_of fun _ => (.boolean _)
  | c, .choice l e, a, h => by
    simp only [type, Option.bind_eq_some_iff, Option.some.injEq] at h
    obtain ⟨b, hb, d, hd, rfl⟩ := h
    exact place_of fun _ => (alternatives_sound _ (namedTypes_sound simple l b hb) (namedAll_sound simple e d hd))
  | c, .restrictedString code, a, h => by
    simp only [type] at h
    split at h
    · next h0 => simp only [Option.some.injEq] at h; subst h; exact place_of fun _ => (.string _ _ h0)
    · simp at h
  | c, .characterString, a, h => by simp only [type, Option.some.injEq] at h; subst h; exact place_of fun _ => (.characterString _)
  | c, .octetString, a, h => by simp only [type, Option.some.injEq] at h; subst h; exact place_of fun _ => (.octetString _)
  | c, .sequence l e, a, h => by
    simp only [type, Option.bind_eq_some_iff, Option.some.injEq] at h
    obtain ⟨b, hb, d, hd, f, hf, rfl⟩ := h
    exact place_of fun _ => (.sequence _ _ _ _ (body_sound (components_sound simple l b hb) (components_sound simple e d hd) hf))
  | c, .set l e, a, h => by
    simp only [type, Option.bind_eq_some_iff, Option.some.injEq] at h
    obtain ⟨b, hb, d, hd, f, hf, rfl⟩ := h
    exact place_of fun _ => (.set _ _ _ _ (body_sound (components_sound simple l b hb) (components_sound simple e d hd) hf))
  | c, .tagged g t i x, a, h => by
    simp only [type] at h
    split at h
    · simp at h
    · next hc =>
      simp only [Option.bind_eq_some_iff, Option.some.injEq] at h
      obtain ⟨b, hb, d, hd, f, hf, rfl⟩ := h
      exact open_of hc (.tagged _ _ _ _ _ _ _ (tag_sound hb) (tagging_sound hd) (type_sound simple .other t f hf))
  | c, .sequenceOf t, a, h => by
    simp only [type] at h
    split at h
    · simp at h
    · next hc =>
      simp only [Option.bind_eq_some_iff, Option.some.injEq] at h
      obtain ⟨b, hb, rfl⟩ := h
      exact open_of hc (.sequenceOf _ _ (type_sound simple .element t b hb))
  | c, .setOf t, a, h => by
    simp only [type] at h
    split at h
    · simp at h
    · next hc =>
      simp only [Option.bind_eq_some_iff, Option.some.injEq] at h
      obtain ⟨b, hb, rfl⟩ := h
      exact open_of hc (.setOf _ _ (type_sound simple .element t b hb))
  | c, .any s, a, h => by
    simp only [type, Option.some.injEq] at h
    subst h
    split
    · next h0 => subst h0; exact place_of fun _ => (.any _)
    · exact place_of fun _ => (.anyDefinedBy _ _)
  | c, .bitString l, a, h => by
    simp only [type, Option.bind_eq_some_iff, Option.some.injEq] at h
    obtain ⟨b, hb, rfl⟩ := h
    have hf := all_sound namedBit_sound hb
    cases hf with
    | nil => exact place_of fun _ => (.bitString _)
    | cons hx hf => exact place_of fun _ => (.bitStringNames _ _ _ (sep_list _ .one .snoc (.cons hx hf) (by simp)))
  | c, .constrained (.sequenceOf t) k, a, h => by
    simp only [type] at h
    split at h
    · simp at h
    · next hc =>
      simp only [Option.bind_eq_some_iff, Option.some.injEq] at h
      obtain ⟨b, hb, d, hd, rfl⟩ := h
      exact open_of hc (.constrainedSequenceOf _ _ _ _ (.constraint _ _ (constraint_sound simple k b hb)) (type_sound simple .element t d hd))
  | c, .constrained (.setOf t) k, a, h => by
    simp only [type] at h
    split at h
    · simp at h
    · next hc =>
      simp only [Option.bind_eq_some_iff, Option.some.injEq] at h
      obtain ⟨b, hb, d, hd, rfl⟩ := h
      exact open_of hc (.constrainedSetOf _ _ _ _ (.constraint _ _ (constraint_sound simple k b hb)) (type_sound simple .element t d hd))
  | c, .constrained (.nil) k, a, h => by
    rw [type.eq_def] at h
    simp only [Option.bind_eq_some_iff, Option.some.injEq] at h
    obtain ⟨b, hb, d, hd, rfl⟩ := h
    exact place_of fun _ => (.constrained _ _ _ _ _ (type_sound simple .constrained (.nil) b hb) (constraint_sound simple k d hd))
  | c, .constrained (.null) k, a, h => by
    rw [type.eq_def] at h
    simp only [Option.bind_eq_some_iff, Option.some.injEq] at h
    obtain ⟨b, hb, d, hd, rfl⟩ := h
    exact place_of fun _ => (.constrained _ _ _ _ _ (type_sound simple .constrained (.null) b hb) (constraint_sound simple k d hd))
  | c, .constrained (.objectIdentifier) k, a, h => by
    rw [type.eq_def] at h
    simp only [Option.bind_eq_some_iff, Option.some.injEq] at h
    obtain ⟨b, hb, d, hd, rfl⟩ := h
    exact place_of fun _ => (.constrained _ _ _ _ _ (type_sound simple .constrained (.objectIdentifier) b hb) (constraint_sound simple k d hd))
  | c, .constrained (.integer l) k, a, h => by
    rw [type.eq_def] at h
    simp only [Option.bind_eq_some_iff, Option.some.injEq] at h
    obtain ⟨b, hb, d, hd, rfl⟩ := h
    exact place_of fun _ => (.constrained _ _ _ _ _ (type_sound simple .constrained (.integer l) b hb) (constraint_sound simple k d hd))
  | c, .constrained (.enumerated l e) k, a, h => by
    rw [type.eq_def] at h
    simp only [Option.bind_eq_some_iff, Option.some.injEq] at h
    obtain ⟨b, hb, d, hd, rfl⟩ := h
    exact place_of fun _ => (.constrained _ _ _ _ _ (type_sound simple .constrained (.enumerated l e) b hb) (constraint_sound simple k d hd))
  | c, .constrained (.real) k, a, h => by
    rw [type.eq_def] at h
    simp only [Option.bind_eq_some_iff, Option.some.injEq] at h
    obtain ⟨b, hb, d, hd, rfl⟩ := h
    exact place_of fun _ => (.constrained _ _ _ _ _ (type_sound simple .constrained (.real) b hb) (constraint_sound simple k d hd))
  | c, .constrained (.boolean) k, a, h => by
    rw [type.eq_def] at h
    simp only [Option.bind_eq_some_iff, Option.some.injEq] at h
    obtain ⟨b, hb, d, hd, rfl⟩ := h
    exact place_of fun _ => (.constrained _ _ _ _ _ (type_sound simple .constrained (.boolean) b hb) (constraint_sound simple k d hd))
  | c, .constrained (.choice l e) k, a, h => by
    rw [type.eq_def] at h
    simp only [Option.bind_eq_some_iff, Option.some.injEq] at h
    obtain ⟨b, hb, d, hd, rfl⟩ := h
    exact place_of fun _ => (.constrained _ _ _ _ _ (type_sound simple .constrained (.choice l e) b hb) (constraint_sound simple k d hd))
  | c, .constrained (.restrictedString x) k, a, h => by
    rw [type.eq_def] at h
    simp only [Option.bind_eq_some_iff, Option.some.injEq] at h
    obtain ⟨b, hb, d, hd, rfl⟩ := h
    exact place_of fun _ => (.constrained _ _ _ _ _ (type_sound simple .constrained (.restrictedString x) b hb) (constraint_sound simple k d hd))
  | c, .constrained (.characterString) k, a, h => by
    rw [type.eq_def] at h
    simp only [Option.bind_eq_some_iff, Option.some.injEq] at h
    obtain ⟨b, hb, d, hd, rfl⟩ := h
    exact place_of fun _ => (.constrained _ _ _ _ _ (type_sound simple .constrained (.characterString) b hb) (constraint_sound simple k d hd))
  | c, .constrained (.octetString) k, a, h => by
    rw [type.eq_def] at h
    simp only [Option.bind_eq_some_iff, Option.some.injEq] at h
    obtain ⟨b, hb, d, hd, rfl⟩ := h
    exact place_of fun _ => (.constrained _ _ _ _ _ (type_sound simple .constrained (.octetString) b hb) (constraint_sound simple k d hd))
  | c, .constrained (.sequence l e) k, a, h => by
    rw [type.eq_def] at h
    simp only [Option.bind_eq_some_iff, Option.some.injEq] at h
    obtain ⟨b, hb, d, hd, rfl⟩ := h
    exact place_of fun _ => (.constrained _ _ _ _ _ (type_sound simple .constrained (.sequence l e) b hb) (constraint_sound simple k d hd))
  | c, .constrained (.set l e) k, a, h => by
    rw [type.eq_def] at h
    simp only [Option.bind_eq_some_iff, Option.some.injEq] at h
    obtain ⟨b, hb, d, hd, rfl⟩ := h
    exact place_of fun _ => (.constrained _ _ _ _ _ (type_sound simple .constrained (.set l e) b hb) (constraint_sound simple k d hd))
  | c, .constrained (.tagged g t i x) k, a, h => by
    rw [type.eq_def] at h
    simp only [Option.bind_eq_some_iff, Option.some.injEq] at h
    obtain ⟨b, hb, d, hd, rfl⟩ := h
    exact place_of fun _ => (.constrained _ _ _ _ _ (type_sound simple .constrained (.tagged g t i x) b hb) (constraint_sound simple k d hd))
  | c, .constrained (.any s) k, a, h => by
    rw [type.eq_def] at h
    simp only [Option.bind_eq_some_iff, Option.some.injEq] at h
    obtain ⟨b, hb, d, hd, rfl⟩ := h
    exact place_of fun _ => (.constrained _ _ _ _ _ (type_sound simple .constrained (.any s) b hb) (constraint_sound simple k d hd))
  | c, .constrained (.bitString l) k, a, h => by
    rw [type.eq_def] at h
    simp only [Option.bind_eq_some_iff, Option.some.injEq] at h
    obtain ⟨b, hb, d, hd, rfl⟩ := h
    exact place_of fun _ => (.constrained _ _ _ _ _ (type_sound simple .constrained (.bitString l) b hb) (constraint_sound simple k d hd))
  | c, .constrained (.constrained t k) k', a, h => by
    rw [type.eq_def] at h
    simp only [Option.bind_eq_some_iff, Option.some.injEq] at h
    obtain ⟨b, hb, d, hd, rfl⟩ := h
    exact place_of fun _ => (.constrained _ _ _ _ _ (type_sound simple .constrained (.constrained t k) b hb) (constraint_sound simple k' d hd))
  | c, .constrained (.ref s) k, a, h => by
    rw [type.eq_def] at h
    simp only [Option.bind_eq_some_iff, Option.some.injEq] at h
    obtain ⟨b, hb, d, hd, rfl⟩ := h
    exact place_of fun _ => (.constrained _ _ _ _ _ (type_sound simple .constrained (.ref s) b hb) (constraint_sound simple k d hd))
  | c, .constrained (.named n) k, a, h => by
    rw [type.eq_def] at h
    simp only [Option.bind_eq_some_iff, Option.some.injEq] at h
    obtain ⟨b, hb, d, hd, rfl⟩ := h
    exact place_of fun _ => (.constrained _ _ _ _ _ (type_sound simple .constrained (.named n) b hb) (constraint_sound simple k d hd))
  | c, .ref s, a, h => by simp only [type, Option.some.injEq] at h; subst h; exact place_of fun _ => (typeName_sound _ _ _)
  | c, .named n, a, h => by
    simp only [type] at h
    split at h
    · next hc =>
      subst hc
      exact .named _ _ (namedType_sound simple n a h)
    · simp at h

theorem namedType_sound (simple : Bool) : ∀ (n : NamedType DV DD) (a : List Token), namedType simple n = some a →
    NamedTypeText Links.written simple a n
  | .mk s t, a, h => by
    simp only [namedType, Option.bind_eq_some_iff, Option.some.injEq] at h
    obtain ⟨b, hb, rfl⟩ := h
    exact .mk _ _ _ (type_sound simple .other t b hb)

theorem namedTypes_sound (simple : Bool) : ∀ (l : List (NamedType DV DD)) (a : List (List Token)), namedTypes simple l = some a →
    List.Forall₂ (NamedTypeText Links.written simple) a l
  | [], a, h => by simp only [namedTypes, Option.some.injEq] at h; subst h; exact .nil
  | x :: l, a, h => by
    simp only [namedTypes, Option.bind_eq_some_iff, Option.some.injEq] at h
    obtain ⟨b, hb, d, hd, rfl⟩ := h
    exact .cons (namedType_sound simple x b hb) (namedTypes_sound simple l d hd)

theorem namedAll_sound (simple : Bool) : ∀ (l : List (Ty DV DD)) (a : List (List Token)), namedAll simple l = some a →
    ∃ e, l = e.map .named ∧ List.Forall₂ (NamedTypeText Links.written simple) a e
  | [], a, h => by simp only [namedAll, Option.some.injEq] at h; subst h; exact ⟨[], rfl, .nil⟩
  | .named x :: l, a, h => by
    simp only [namedAll, Option.bind_eq_some_iff, Option.some.injEq] at h
    obtain ⟨b, hb, d, hd, rfl⟩ := h
    obtain ⟨e, he, h'⟩ := namedAll_sound simple l d hd
    exact ⟨x :: e, by rw [he]; rfl, .cons (namedType_sound simple x b hb) h'⟩
  | .sequenceOf t :: _, a, h => by simp [namedAll] at h
  | .setOf t :: _, a, h => by simp [namedAll] at h
  | .nil :: _, a, h => by simp [namedAll] at h
  | .null :: _, a, h => by simp [namedAll] at h
  | .objectIdentifier :: _, a, h => by simp [namedAll] at h
  | .integer l :: _, a, h => by simp [namedAll] at h
  | .enumerated l e :: _, a, h => by simp [namedAll] at h
  | .real :: _, a, h => by simp [namedAll] at h
  | .boolean :: _, a, h => by simp [namedAll] at h
  | .choice l e :: _, a, h => by simp [namedAll] at h
  | .restrictedString x :: _, a, h => by simp [namedAll] at h
  | .characterString :: _, a, h => by simp [namedAll] at h
  | .octetString :: _, a, h => by simp [namedAll] at h
  | .sequence l e :: _, a, h => by simp [namedAll] at h
  | .set l e :: _, a, h => by simp [namedAll] at h
  | .tagged g t i x :: _, a, h => by simp [namedAll] at h
  | .any s :: _, a, h => by simp [namedAll] at h
  | .bitString l :: _, a, h => by simp [namedAll] at h
  | .constrained t k :: _, a, h => by simp [namedAll] at h
  | .ref s :: _, a, h => by simp [namedAll] at h

theorem component_sound (simple : Bool) : ∀ (x : ComponentType DV DD) (a : List Token), component simple x = some a →
    ComponentText Links.written simple a x
  | .nil, a, h => by simp [component] at h
  | .named n false none, a, h => .required _ _ (namedType_sound simple n a (by simpa only [component] using h))
  | .named n true none, a, h => by
    simp only [component, Option.bind_eq_some_iff, Option.some.injEq] at h
    obtain ⟨b, hb, rfl⟩ := h
    exact .optional _ _ (namedType_sound simple n b hb)
  | .named n false (some v), a, h => by
    simp only [component] at h
    split at h
    · simp at h
    · next hs =>
      simp only [Option.bind_eq_some_iff, Option.some.injEq] at h
      obtain ⟨b, hb, d, hd, rfl⟩ := h
      exact .default _ _ _ v (by simpa using hs) (namedType_sound simple n b hb) (value_sound hd)
  | .named _ true (some _), a, h => by simp [component] at h
  | .componentsOf t, a, h => by
    simp only [component, Option.bind_eq_some_iff, Option.some.injEq] at h
    obtain ⟨b, hb, rfl⟩ := h
    exact .componentsOf _ _ (type_sound simple .other t b hb)

theorem components_sound (simple : Bool) : ∀ (l : List (ComponentType DV DD)) (a : List (List Token)), components simple l = some a →
    List.Forall₂ (ComponentText Links.written simple) a l
  | [], a, h => by simp only [components, Option.some.injEq] at h; subst h; exact .nil
  | x :: l, a, h => by
    simp only [components, Option.bind_eq_some_iff, Option.some.injEq] at h
    obtain ⟨b, hb, d, hd, rfl⟩ := h
    exact .cons (component_sound simple x b hb) (components_sound simple l d hd)

theorem constraint_sound (simple : Bool) : ∀ (k : Constraint DV DD) (a : List Token), constraint simple k = some a →
    ConstraintText Links.written simple a k
  | .mk s, a, h => constraintSpec_sound simple s a (by simpa only [constraint] using h)

theorem constraintSpec_sound (simple : Bool) : ∀ (k : ConstraintSpec DV DD) (a : List Token), constraintSpec simple k = some a →
    ConstraintText Links.written simple a (.mk k)
  | .nil, a, h => by simp [constraintSpec] at h
  | .subtype [], a, h => by simp [constraintSpec] at h
  | .subtype [e], a, h => by
    simp only [constraintSpec, Option.bind_eq_some_iff, Option.some.injEq] at h
    obtain ⟨b, hb, rfl⟩ := h
    exact .mk (L := Links.written) (simple := simple) _ [] _ (.one _ _ (set_sound simple e b hb)) .none
  | .subtype [e, f], a, h => by
    simp only [constraintSpec, Option.bind_eq_some_iff, Option.some.injEq] at h
    obtain ⟨b, hb, d, hd, rfl⟩ := h
    exact .mk (L := Links.written) (simple := simple) _ [] _ (.extended _ _ _ _ (set_sound simple e b hb) (set_sound simple f d hd)) .none
  | .subtype (_ :: _ :: _ :: _), a, h => by simp [constraintSpec] at h
  | .general, a, h => by simp [constraintSpec] at h

theorem set_sound (simple : Bool) : ∀ (e : Elements DV DD) (a : List Token), valueSet simple e = some a → SetText Links.written simple a e
  | .unions l, a, h => by
    simp only [valueSet, Option.bind_eq_some_iff, Option.some.injEq] at h
    obtain ⟨b, hb, d, hd, rfl⟩ := h
    obtain ⟨rfl, hn⟩ := nonempty_sound hd
    exact .unions _ _ (sep_list _ .one (fun a b l x h h' => .snoc _ a b l x h (by simp) h') (unions_sound simple l d hb) hn)
  | .exclusions e, a, h => by
    simp only [valueSet, Option.bind_eq_some_iff, Option.some.injEq] at h
    obtain ⟨b, hb, rfl⟩ := h
    exact .allExcept _ _ (elements_sound simple e b hb)
  | .nil, a, h => by simp [valueSet] at h
  | .singleValue _, a, h => by simp [valueSet] at h
  | .valueRange _ _, a, h => by simp [valueSet] at h
  | .typeConstraint _, a, h => by simp [valueSet] at h
  | .size _, a, h => by simp [valueSet] at h
  | .inner, a, h => by simp [valueSet] at h

theorem unions_sound (simple : Bool) : ∀ (l : List (List (IntersectionElements DV DD))) (a : List (List Token)), unions simple l = some a →
    List.Forall₂ (IntersectionsText Links.written simple) a l
  | [], a, h => by simp only [unions, Option.some.injEq] at h; subst h; exact .nil
  | x :: l, a, h => by
    simp only [unions, Option.bind_eq_some_iff, Option.some.injEq] at h
    obtain ⟨b, hb, d, hd, f, hf, rfl⟩ := h
    obtain ⟨rfl, hn⟩ := nonempty_sound hd
    exact .cons (sep_list _ .one (fun a b l x h h' => .snoc _ a b l x h (by simp) h') (intersections_sound simple x d hb) hn)
      (unions_sound simple l f hf)

theorem intersections_sound (simple : Bool) : ∀ (l : List (IntersectionElements DV DD)) (a : List (List Token)),
    intersections simple l = some a → List.Forall₂ (ExceptText Links.written simple) a l
  | [], a, h => by simp only [intersections, Option.some.injEq] at h; subst h; exact .nil
  | x :: l, a, h => by
    simp only [intersections, Option.bind_eq_some_iff, Option.some.injEq] at h
    obtain ⟨b, hb, d, hd, rfl⟩ := h
    exact .cons (except_sound simple x b hb) (intersections_sound simple l d hd)

theorem except_sound (simple : Bool) : ∀ (x : IntersectionElements DV DD) (a : List Token), except simple x = some a →
    ExceptText Links.written simple a x
  | .mk e .nil, a, h => .plain _ _ (elements_sound simple e a (by simpa only [except] using h))
  | .mk e (.unions l), a, h => by
    simp only [except, Option.bind_eq_some_iff, Option.some.injEq] at h
    obtain ⟨b, hb, d, hd, rfl⟩ := h
    exact .except _ _ _ _ (elements_sound simple e b hb) (elements_sound simple (.unions l) d hd)
  | .mk e (.exclusions f), a, h => by
    simp only [except, Option.bind_eq_some_iff, Option.some.injEq] at h
    obtain ⟨b, hb, d, hd, rfl⟩ := h
    exact .except _ _ _ _ (elements_sound simple e b hb) (elements_sound simple (.exclusions f) d hd)
  | .mk e (.singleValue v), a, h => by
    simp only [except, Option.bind_eq_some_iff, Option.some.injEq] at h
    obtain ⟨b, hb, d, hd, rfl⟩ := h
    exact .except _ _ _ _ (elements_sound simple e b hb) (elements_sound simple (.singleValue v) d hd)
  | .mk e (.valueRange v w), a, h => by
    simp only [except, Option.bind_eq_some_iff, Option.some.injEq] at h
    obtain ⟨b, hb, d, hd, rfl⟩ := h
    exact .except _ _ _ _ (elements_sound simple e b hb) (elements_sound simple (.valueRange v w) d hd)
  | .mk e (.typeConstraint t), a, h => by
    simp only [except, Option.bind_eq_some_iff, Option.some.injEq] at h
    obtain ⟨b, hb, d, hd, rfl⟩ := h
    exact .except _ _ _ _ (elements_sound simple e b hb) (elements_sound simple (.typeConstraint t) d hd)
  | .mk e (.size k), a, h => by
    simp only [except, Option.bind_eq_some_iff, Option.some.injEq] at h
    obtain ⟨b, hb, d, hd, rfl⟩ := h
    exact .except _ _ _ _ (elements_sound simple e b hb) (elements_sound simple (.size k) d hd)
  | .mk e (.inner), a, h => by
    simp only [except, Option.bind_eq_some_iff, Option.some.injEq] at h
    obtain ⟨b, hb, d, hd, rfl⟩ := h
    exact .except _ _ _ _ (elements_sound simple e b hb) (elements_sound simple (.inner) d hd)

theorem elements_sound (simple : Bool) : ∀ (e : Elements DV DD) (a : List Token), elements simple e = some a →
    ElementsText Links.written simple a e
  | .nil, a, h => by simp [elements] at h
  | .unions l, a, h => by
    simp only [elements, Option.bind_eq_some_iff, Option.some.injEq] at h
    obtain ⟨b, hb, d, hd, rfl⟩ := h
    obtain ⟨rfl, hn⟩ := nonempty_sound hd
    exact .parentheses _ _ (.unions _ _ (sep_list _ .one (fun a b l x h h' => .snoc _ a b l x h (by simp) h') (unions_sound simple l d hb) hn))
  | .exclusions e, a, h => by
    simp only [elements, Option.bind_eq_some_iff, Option.some.injEq] at h
    obtain ⟨b, hb, rfl⟩ := h
    exact .parentheses _ _ (.allExcept _ _ (elements_sound simple e b hb))
  | .singleValue v, a, h => .value _ _ (value_sound (by simpa only [elements] using h))
  | .valueRange v w, a, h => .range _ _ _ (range_sound (by simpa only [elements] using h))
  | .typeConstraint t, a, h => .type _ _ (type_sound simple .other t a (by simpa only [elements] using h))
  | .size k, a, h => by
    simp only [elements, Option.bind_eq_some_iff, Option.some.injEq] at h
    obtain ⟨b, hb, rfl⟩ := h
    exact .size _ _ (constraint_sound simple k b hb)
  | .inner, a, h => by
    simp only [elements, Option.some.injEq] at h
    subst h
    exact .components _ (.one _ (.presence _ _ .none))

end

theorem assignment_sound (simple : Bool) (x : Assignment DV DD) (a : List Token) (h : assignment simple x = some a) :
    AssignmentText Links.written simple a x := by
  cases x <;> simp only [assignment, Option.bind_eq_some_iff, Option.some.injEq, reduceCtorEq] at h
  · obtain ⟨b, hb, rfl⟩ := h
    exact .type _ _ _ (type_sound _ .other _ _ hb)
  · obtain ⟨b, hb, d, hd, rfl⟩ := h
    exact .value _ _ _ _ _ (type_sound _ .other _ _ hb) (value_sound hd)

theorem symbol_sound (x : Symbol) (a : List Token) (h : symbol x = some a) : SymbolText a x := by
  cases x <;> simp only [symbol, Option.some.injEq, reduceCtorEq] at h
  · subst h; exact .type _
  · subst h; exact .value _

theorem imported_sound {simple last : Bool} {x : SymbolsFromModule DV} {a : List Token} (h : imported simple last x = some a) :
    FromText Links.written simple (!last) a x := by
  obtain ⟨l, s, v⟩ := x
  simp only [imported, Option.bind_eq_some_iff, Option.some.injEq] at h
  obtain ⟨l', hl, b, hb, d, hd, rfl⟩ := h
  obtain ⟨rfl, hn⟩ := nonempty_sound hl
  have hf := all_sound symbol_sound hb
  have hs : SymbolsText (commas b) l' := sep_list _ .one .snoc hf ((forall2_ne hf).2 hn)
  cases v <;> simp only [reduceCtorEq] at hd
  · cases last <;> simp only [Bool.false_eq_true, ↓reduceIte, reduceCtorEq, Option.some.injEq] at hd
    subst hd
    exact .none _ _ _ hs
  · simp only [Option.some.injEq] at hd
    subst hd
    exact .defined _ _ _ _ _ _ hs (defined_sound _)
  · exact .oid _ _ _ _ _ _ hs (oid_sound hd)

theorem froms_cons {simple c : Bool} {a b : List Token} {x : SymbolsFromModule DV} {l : List (SymbolsFromModule DV)}
    (hx : FromText Links.written simple true a x) (h : FromsText Links.written simple c b l) :
    FromsText Links.written simple c (a ++ b) (x :: l) := by
  induction h with
  | one c b y hy => exact .snoc _ _ _ [x] y (.one _ _ _ hx) hy
  | snoc c b d l y _ hy ih =>
    have := FromsText.snoc _ _ _ _ _ ih hy
    simpa using this

theorem imports_sound {simple : Bool} : ∀ {l : List (SymbolsFromModule DV)} {a : List Token}, imports simple l = some a → l ≠ [] →
    FromsText Links.written simple false a l
  | [], _, _, h => absurd rfl h
  | [x], a, h, _ => .one _ _ _ (imported_sound (last := true) (by simpa only [imports] using h))
  | x :: y :: l, a, h, _ => by
    simp only [imports, Option.bind_eq_some_iff, Option.some.injEq] at h
    obtain ⟨b, hb, d, hd, rfl⟩ := h
    exact froms_cons (imported_sound (last := false) hb) (imports_sound hd (by simp))

theorem moduleBody_sound {simple : Bool} {m : ModuleBody DV DD} {a : List Token} (h : moduleBody simple m = some a) :
    ModuleBodyText Links.written simple a m := by
  obtain ⟨l, i⟩ := m
  simp only [moduleBody] at h
  split at h
  · next hl =>
    split at h
    · next hi =>
      simp only [Option.some.injEq] at h
      subst h
      simp only [List.isEmpty_iff] at hl hi
      subst hl hi
      exact .empty
    · simp at h
  · next hl =>
    simp only [Option.bind_eq_some_iff, Option.some.injEq] at h
    obtain ⟨b, hb, d, hd, rfl⟩ := h
    have hf := all_sound (assignment_sound simple) hd
    refine .some [] _ _ _ _ .none ?_ (flat_list .one .snoc hf (by simpa using hl))
    split
    · next hi =>
      simp only [List.isEmpty_iff] at hi
      subst hi
      exact .none
    · next hi => exact .some _ _ (imports_sound hb (by simpa using hi))

theorem definitive_sound (x : DefinitiveObjIdComponent) (a : List Token) (h : definitive x = some a) : DefinitiveText a x := by
  obtain ⟨s, i⟩ := x
  simp only [definitive, Option.bind_eq_some_iff, Option.some.injEq] at h
  obtain ⟨b, hb, rfl⟩ := h
  obtain ⟨r, k, rfl, rfl⟩ := natural_sound hb
  split
  · next h0 => subst h0; exact .number _ _
  split
  · next h0 => rw [h0]; exact .name _
  · exact .both _ _ _

theorem tags_sound {i : Int} {a : List Token} (h : tags i = some a) : TagsText a i := by
  unfold tags at h
  split at h
  · next h0 => subst h0; simp only [Option.some.injEq] at h; subst h; exact .none
  split at h
  · next h0 => subst h0; simp only [Option.some.injEq] at h; subst h; exact .implicit
  split at h
  · next h0 => subst h0; simp only [Option.some.injEq] at h; subst h; exact .automatic
  · simp at h

/-- What is printed is notation for the module printed. -/
theorem module_sound {simple : Bool} {m : ModuleDefinition DV DD} {a : List Token} (h : Print.module simple m = some a) :
    ModuleText Links.written simple a m := by
  obtain ⟨⟨s, i⟩, g, x, m⟩ := m
  simp only [Print.module, Option.bind_eq_some_iff, Option.some.injEq] at h
  obtain ⟨b, hb, d, hd, e, he, rfl⟩ := h
  have hf := all_sound definitive_sound hb
  refine .mk s _ _ _ _ i g x m ?_ (tags_sound hd) ?_ (moduleBody_sound he)
  · cases hf with
    | nil => exact .none
    | cons hx hf => exact .some _ _ (flat_list' .one .cons (.cons hx hf) (by simp))
  · cases x
    · exact .none
    · exact .implied

end Asn1go.Print
