import Verif.Proofs.Codegen.Supported
import Verif.Proofs.Codegen.Numbers

/-! Reading the tags of generated struct fields. -/

namespace Asn1go.CG

open Spec

/-- A part of a tag: not empty and without comma. -/
def Part (s : Str) : Prop := s ≠ [] ∧ ',' ∉ s

theorem cutComma_end : ∀ {a : Str}, ',' ∉ a → cutComma a = (a, [])
  | [], _ => rfl
  | c :: a, h => by
    simp only [List.mem_cons, not_or] at h
    rw [cutComma, if_neg (fun e => h.1 e.symm), cutComma_end h.2]

theorem cutComma_mid : ∀ {a : Str} (b : Str), ',' ∉ a → cutComma (a ++ ',' :: b) = (a, b)
  | [], b, _ => by simp [cutComma]
  | c :: a, b, h => by
    simp only [List.mem_cons, not_or] at h
    rw [List.cons_append, cutComma, if_neg (fun e => h.1 e.symm), cutComma_mid b h.2]

theorem readParts_join : ∀ (l : List Str) (fuel : Nat) (p : FieldParams), (∀ s ∈ l, Part s) → (joinStr (c! ",") l).length ≤ fuel →
    readParts fuel p (joinStr (c! ",") l) = l.foldl readPart p
  | [], 0, p, _, _ => rfl
  | [], fuel + 1, p, _, _ => by simp [readParts, joinStr]
  | [a], 0, p, h, hf => by
    have := (h a (by simp)).1
    rw [joinStr] at hf
    have : a = [] := List.length_eq_zero_iff.1 (by omega)
    contradiction
  | [a], fuel + 1, p, h, hf => by
    obtain ⟨h1, h2⟩ := h a (by simp)
    rw [joinStr, readParts, if_neg h1, cutComma_end h2]
    cases fuel <;> simp [readParts]
  | a :: b :: l, 0, p, h, hf => by
    rw [joinStr] at hf
    · simp at hf
    · simp
  | a :: b :: l, fuel + 1, p, h, hf => by
    obtain ⟨h1, h2⟩ := h a (by simp)
    have hj : joinStr (c! ",") (a :: b :: l) = a ++ ',' :: joinStr (c! ",") (b :: l) := by
      rw [joinStr]
      · simp
      · simp
    rw [hj] at hf ⊢
    rw [readParts, if_neg (by simp), cutComma_mid _ h2]
    simp only
    rw [readParts_join (b :: l) fuel _ (fun s hs => h s (by simp [hs]))]
    · rfl
    · simp at hf
      omega

theorem asn1Key_tag (s : Str) : asn1Key (c! "`asn1:\"" ++ s ++ c! "\"`") = some s := by
  unfold asn1Key
  rw [if_pos]
  · congr 1
    simp
  · refine ⟨⟨s ++ c! "\"`", by simp⟩, ⟨c! "`asn1:\"" ++ s, rfl⟩, by simp⟩

theorem fieldParams_literal {l : List Str} (h : ∀ s ∈ l, Part s) : fieldParams (tagLiteral l) = l.foldl readPart {} := by
  unfold tagLiteral
  cases l with
  | nil => rfl
  | cons a l =>
    simp only [List.isEmpty_cons, Bool.false_eq_true, if_false]
    rw [fieldParams, asn1Key_tag, Option.getD_some, readFieldParams, readParts_join _ _ _ h (Nat.le_refl _)]

theorem part_tag (n : Int) : Part (c! "tag:" ++ intStr n) := by
  refine ⟨by simp, ?_⟩
  have := intStr_comma n
  simp [this]

theorem part_default (n : Int) : Part (c! "default:" ++ intStr n) := by
  refine ⟨by simp, ?_⟩
  have := intStr_comma n
  simp [this]

theorem parseInt64_intStr {n : Int} (h : GoInt n) : parseInt64 (intStr n) = some n := by
  unfold parseInt64
  rw [signed_intStr]
  unfold GoInt at h
  simp only
  rw [if_pos h]

theorem ne_of_head {a b : Char} {s t : Str} (h : a ≠ b) : a :: s ≠ b :: t := by
  simp [h]

theorem readPart_tag (p : FieldParams) {n : Int} (h : GoInt n) : readPart p (c! "tag:" ++ intStr n) = { p with tag := some n } := by
  unfold readPart
  simp [parseInt64_intStr h]

theorem readPart_tag' (p : FieldParams) {n : Int} (h : GoInt n) :
    readPart p ('t' :: 'a' :: 'g' :: ':' :: intStr n) = { p with tag := some n } := readPart_tag p h

theorem readPart_default (p : FieldParams) {n : Int} (h : GoInt n) : readPart p (c! "default:" ++ intStr n) = { p with dflt := some n } := by
  unfold readPart
  simp [parseInt64_intStr h]

/-- The default number. -/
def defaultNumber : Option (Value DefinedValue) → Option Int
  | some (.number n) => some n
  | _ => none

theorem option_parts (o : Bool) (d : Option (Value DefinedValue)) : ∀ s ∈ optionComponents o d, Part s := by
  have ho : Part (c! "optional") := by constructor <;> decide
  intro s hs
  unfold optionComponents at hs
  rcases List.mem_append.1 hs with hs | hs
  · split at hs
    · rw [List.mem_singleton.1 hs]; exact ho
    · simp at hs
  · split at hs
    · simp at hs
    · rcases List.mem_append.1 hs with hs | hs
      · split at hs
        · rw [List.mem_singleton.1 hs]; exact part_default _
        · simp at hs
      · split at hs
        · rw [List.mem_singleton.1 hs]; exact ho
        · simp at hs

theorem option_read (o : Bool) (d : Option (Value DefinedValue)) (hd : ∀ n, d = some (.number n) → GoInt n) :
    (optionComponents o d).foldl readPart {} = { optional := o || d.isSome, dflt := defaultNumber d } := by
  have ho : ∀ p, readPart p (c! "optional") = { p with optional := true } := fun _ => rfl
  cases d with
  | none => cases o <;> rfl
  | some v =>
    cases v with
    | number n =>
      have hn := hd n rfl
      cases o with
      | true => simp only [optionComponents, if_true, Bool.not_true, Bool.false_eq_true, if_false, List.append_nil, List.foldl_append,
          List.foldl_cons, List.foldl_nil, ho, readPart_default _ hn]; rfl
      | false => simp only [optionComponents, if_true, Bool.not_false, Bool.false_eq_true, if_false, List.nil_append, List.foldl_append,
          List.foldl_cons, List.foldl_nil, ho, readPart_default _ hn]; rfl
    | _ => cases o <;> rfl

/-- Reading the parts of one tag. -/
def readTag (p : FieldParams) (cls n kind : Int) : FieldParams :=
  { p with application := p.application || decide (cls = CLASS_APPLICATION), isPrivate := p.isPrivate || decide (cls = CLASS_PRIVATE),
           explicit := p.explicit || decide (kind = TAGS_EXPLICIT), tag := some n }

theorem class_parts (cls : Int) : ∀ s ∈ classComponents cls, Part s := by
  intro s hs
  unfold classComponents at hs
  split at hs
  · rw [List.mem_singleton.1 hs]; constructor <;> decide
  · split at hs
    · rw [List.mem_singleton.1 hs]; constructor <;> decide
    · simp at hs

theorem explicit_parts (kind : Int) : ∀ s ∈ (if kind = TAGS_EXPLICIT then [c! "explicit"] else []), Part s := by
  intro s hs
  split at hs
  · rw [List.mem_singleton.1 hs]; constructor <;> decide
  · simp at hs

theorem tag_read (p : FieldParams) (cls n kind : Int) (hn : GoInt n) :
    (classComponents cls ++ (if kind = TAGS_EXPLICIT then [c! "explicit"] else []) ++ [c! "tag:" ++ intStr n]).foldl readPart p =
      readTag p cls n kind := by
  have ha : ∀ p, readPart p (c! "application") = { p with application := true, tag := some (p.tag.getD 0) } := fun _ => rfl
  have hp : ∀ p, readPart p (c! "private") = { p with isPrivate := true, tag := some (p.tag.getD 0) } := fun _ => rfl
  have he : ∀ p, readPart p (c! "explicit") = { p with explicit := true, tag := some (p.tag.getD 0) } := fun _ => rfl
  unfold classComponents readTag
  obtain ⟨po, pe, pa, pp, pd, pt, ps, ptt, pset, pom⟩ := p
  by_cases h1 : cls = CLASS_APPLICATION
  · have h2 : cls ≠ CLASS_PRIVATE := by rw [h1]; decide
    by_cases h3 : kind = TAGS_EXPLICIT
    · simp [h1, h3, List.foldl_append, ha, he, readPart_tag' _ hn]
    · simp [h1, h3, List.foldl_append, ha, readPart_tag' _ hn]
  · by_cases h2 : cls = CLASS_PRIVATE
    · by_cases h3 : kind = TAGS_EXPLICIT
      · have h4 : CLASS_PRIVATE ≠ CLASS_APPLICATION := by decide
        simp [h2, h3, h4, List.foldl_append, hp, he, readPart_tag' _ hn]
      · have h4 : CLASS_PRIVATE ≠ CLASS_APPLICATION := by decide
        simp [h2, h3, h4, List.foldl_append, hp, readPart_tag' _ hn]
    · by_cases h3 : kind = TAGS_EXPLICIT
      · simp [h1, h2, h3, List.foldl_append, he, readPart_tag' _ hn]
      · simp [h1, h2, h3, readPart_tag' _ hn]

/-- What reading the parts of all tags amounts to. -/
structure TagsRead (tags : List (Int × Value DefinedValue × Int)) (p q : FieldParams) : Prop where
  optional : q.optional = p.optional
  dflt : q.dflt = p.dflt
  strings : q.stringType = p.stringType
  times : q.timeType = p.timeType
  set : q.set = p.set
  omitEmpty : q.omitEmpty = p.omitEmpty
  explicit : q.explicit = true ↔ p.explicit = true ∨ ∃ x ∈ tags, x.2.2 = TAGS_EXPLICIT
  application : q.application = true ↔ p.application = true ∨ ∃ x ∈ tags, x.1 = CLASS_APPLICATION
  isPrivate : q.isPrivate = true ↔ p.isPrivate = true ∨ ∃ x ∈ tags, x.1 = CLASS_PRIVATE
  tag : (tags = [] ∧ q.tag = p.tag) ∨ ∃ cls n k, tags.getLast? = some (cls, .number n, k) ∧ q.tag = some n

theorem tagComponents_read {c : GenCtx} {name : Str} : ∀ (t : MTy) (x : List Str × MTy) (log : List Event),
    tagComponents c name t = some (x, log) → errorsOf log = [] →
    (∀ cls n k, (cls, .number n, k) ∈ tagsAround c.tagDefault t → GoInt n) →
    (∀ s ∈ x.1, Part s) ∧ ∀ p, TagsRead (tagsAround c.tagDefault t) p (x.1.foldl readPart p) := by
  refine wrapInduct ?_ ?_ ?_
  · intro g t k hh ih x log h he hr
    rw [tagComponents] at h
    replace h := bind_some.1 h
    obtain ⟨ex, l1, l2, h1, h, rfl⟩ := h
    replace h := bind_some.1 h
    obtain ⟨num, l3, l4, h2, h, rfl⟩ := h
    replace h := bind_some.1 h
    obtain ⟨y, l5, l6, h3, h, rfl⟩ := h
    obtain ⟨rfl, rfl⟩ := pure_some.1 h
    simp only [errors_append, errors_nil, and_true] at he
    obtain ⟨he1, he2, he3⟩ := he
    obtain ⟨-, -, rfl⟩ := explicit_spec h1
    rw [tagsAround] at hr ⊢
    obtain ⟨hp, hread⟩ := ih y l5 h3 he3 (fun cls n k hm => hr cls n k (by simp [hm]))
    rcases tagNumber_spec h2 with ⟨n, hn, rfl, rfl⟩ | ⟨hn, rfl, rfl⟩
    · have hn64 : GoInt n := hr g.cls n (if hh = true then k else c.tagDefault) (by rw [hn]; simp)
      constructor
      · intro s hs
        rcases List.mem_append.1 hs with hs | hs
        · rcases List.mem_append.1 hs with hs | hs
          · rcases List.mem_append.1 hs with hs | hs
            · exact class_parts _ s hs
            · exact explicit_parts _ s hs
          · rw [List.mem_singleton.1 hs]; exact part_tag n
        · exact hp s hs
      · intro p
        rw [List.foldl_append, tag_read _ _ _ _ hn64]
        have hq := hread (readTag p g.cls n (if hh = true then k else c.tagDefault))
        generalize y.1.foldl readPart (readTag p g.cls n (if hh = true then k else c.tagDefault)) = q at hq ⊢
        refine ⟨hq.optional, hq.dflt, hq.strings, hq.times, hq.set, hq.omitEmpty, ?_, ?_, ?_, ?_⟩
        · rw [hq.explicit]
          simp [readTag, or_assoc]
        · rw [hq.application]
          simp [readTag, or_assoc]
        · rw [hq.isPrivate]
          simp [readTag, or_assoc]
        · right
          rcases hq.tag with ⟨h0, h1⟩ | ⟨cls, m, kk, h0, h1⟩
          · refine ⟨g.cls, n, if hh = true then k else c.tagDefault, ?_, h1⟩
            rw [h0, hn]
            rfl
          · refine ⟨cls, m, kk, ?_, h1⟩
            rw [List.getLast?_cons, h0]
            rfl
    · simp [errorsOf] at he2
  · intro t y ih x log h he hr
    rw [tagComponents] at h
    rw [tagsAround] at hr ⊢
    exact ih x log h he hr
  · intro t h1 h2 x log h he hr
    have e1 : tagComponents c name t = pure ([], t) := by
      cases t <;> first | rfl | exact absurd rfl (h1 _ _ _ _) | exact absurd rfl (h2 _ _)
    have e2 : tagsAround c.tagDefault t = [] := by
      cases t <;> first | rfl | exact absurd rfl (h1 _ _ _ _) | exact absurd rfl (h2 _ _)
    rw [e1] at h
    obtain ⟨rfl, rfl⟩ := pure_some.1 h
    rw [e2]
    refine ⟨by simp, fun p => ⟨rfl, rfl, rfl, rfl, rfl, rfl, by simp, by simp, by simp, .inl ⟨rfl, rfl⟩⟩⟩

/-- What reading the parts for the kind of type amounts to. -/
structure KindRead (l : List MAssignment) (t : MTy) (p q : FieldParams) : Prop where
  optional : q.optional = p.optional
  dflt : q.dflt = p.dflt
  explicit : q.explicit = p.explicit
  application : q.application = p.application
  isPrivate : q.isPrivate = p.isPrivate
  tag : q.tag = p.tag
  omitEmpty : q.omitEmpty = p.omitEmpty
  set : q.set = true ↔ (∃ a b, t = .set a b) ∨ ∃ t', t = .setOf t'
  ia5 : q.stringType = 22 ↔ t = .restrictedString Tok.IA5String
  numeric : q.stringType = 18 ↔ t = .restrictedString Tok.NumericString
  utf8 : q.stringType = 12 ↔ t = .restrictedString Tok.UTF8String
  strings : q.stringType ∈ [0, 12, 18, 22]
  generalized : q.timeType = 24 ↔ ∃ a t', t = .ref a ∧ Leaf l a (c! "GeneralizedTime") t'
  utc : q.timeType = 23 ↔ ∃ a t', t = .ref a ∧ Leaf l a (c! "UTCTime") t'
  times : q.timeType ∈ [0, 23, 24]

theorem kind_read {c : GenCtx} {t : MTy} {x : List Str} {log : List Event} (h : kindComponents c t = some (x, log)) :
    (∀ s ∈ x, Part s) ∧ ∀ p : FieldParams, p.set = false → p.stringType = 0 → p.timeType = 0 →
      KindRead c.assignments t p (x.foldl readPart p) := by
  have hgu : GeneralizedTimeName ≠ UTCTimeName := by decide
  have fin : ∀ s, Part s → (∀ s' ∈ [s], Part s') := by
    intro s hs s' hs'
    rw [List.mem_singleton.1 hs']; exact hs
  unfold kindComponents at h
  split at h
  · rename_i lt
    split at h
    · rename_i h1
      subst h1
      obtain ⟨rfl, rfl⟩ := pure_some.1 h
      refine ⟨fin _ (by constructor <;> decide), fun p hp1 hp2 hp3 => ?_⟩
      exact ⟨rfl, rfl, rfl, rfl, rfl, rfl, rfl, by simp [readPart, hp1], by simp [readPart], by simp [readPart],
        by simp [readPart], by simp [readPart], by simp [readPart, hp3], by simp [readPart, hp3], by simp [readPart, hp3]⟩
    · split at h
      · rename_i h1 h2
        subst h2
        obtain ⟨rfl, rfl⟩ := pure_some.1 h
        refine ⟨fin _ (by constructor <;> decide), fun p hp1 hp2 hp3 => ?_⟩
        exact ⟨rfl, rfl, rfl, rfl, rfl, rfl, rfl, by simp [readPart, hp1], by simp [readPart], by simp [readPart],
          by simp [readPart], by simp [readPart], by simp [readPart, hp3], by simp [readPart, hp3], by simp [readPart, hp3]⟩
      · split at h
        · rename_i h1 h2 h3
          subst h3
          obtain ⟨rfl, rfl⟩ := pure_some.1 h
          refine ⟨fin _ (by constructor <;> decide), fun p hp1 hp2 hp3 => ?_⟩
          exact ⟨rfl, rfl, rfl, rfl, rfl, rfl, rfl, by simp [readPart, hp1], by simp [readPart], by simp [readPart],
            by simp [readPart], by simp [readPart], by simp [readPart, hp3], by simp [readPart, hp3], by simp [readPart, hp3]⟩
        · rename_i h1 h2 h3
          obtain ⟨rfl, rfl⟩ := pure_some.1 h
          refine ⟨by simp, fun p hp1 hp2 hp3 => ?_⟩
          exact ⟨rfl, rfl, rfl, rfl, rfl, rfl, rfl, by simp [hp1], by simp [hp2, h1], by simp [hp2, h3],
            by simp [hp2, h2], by simp [hp2], by simp [hp3], by simp [hp3], by simp [hp3]⟩
  · obtain ⟨rfl, rfl⟩ := pure_some.1 h
    refine ⟨fin _ (by constructor <;> decide), fun p hp1 hp2 hp3 => ?_⟩
    exact ⟨rfl, rfl, rfl, rfl, rfl, rfl, rfl, by simp [readPart], by simp [readPart, hp2], by simp [readPart, hp2],
      by simp [readPart, hp2], by simp [readPart, hp2], by simp [readPart, hp3], by simp [readPart, hp3], by simp [readPart, hp3]⟩
  · obtain ⟨rfl, rfl⟩ := pure_some.1 h
    refine ⟨fin _ (by constructor <;> decide), fun p hp1 hp2 hp3 => ?_⟩
    exact ⟨rfl, rfl, rfl, rfl, rfl, rfl, rfl, by simp [readPart], by simp [readPart, hp2], by simp [readPart, hp2],
      by simp [readPart, hp2], by simp [readPart, hp2], by simp [readPart, hp3], by simp [readPart, hp3], by simp [readPart, hp3]⟩
  · rename_i a
    cases hu : unwrapToLeafType c.assignments c.fuel a with
    | none => rw [hu] at h; cases h
    | some y =>
      obtain ⟨r, t'⟩ := y
      rw [hu] at h
      have hl := unwrap_sound hu
      simp only at h
      have key : ∀ s : Str, (∃ a' t'', (Ty.ref a : MTy) = .ref a' ∧ Leaf c.assignments a' s t'') ↔ r = s := by
        intro s
        constructor
        · rintro ⟨a', t'', ha, hl'⟩
          cases ha
          exact (leaf_unique hl hl').1
        · rintro rfl
          exact ⟨a, t', rfl, hl⟩
      split at h
      · rename_i h1
        subst h1
        obtain ⟨rfl, rfl⟩ := pure_some.1 h
        refine ⟨fin _ (by constructor <;> decide), fun p hp1 hp2 hp3 => ?_⟩
        exact ⟨rfl, rfl, rfl, rfl, rfl, rfl, rfl, by simp [readPart, hp1], by simp [readPart, hp2], by simp [readPart, hp2],
          by simp [readPart, hp2], by simp [readPart, hp2], by rw [key]; simp [readPart, GeneralizedTimeName],
          by rw [key]; simp [readPart, GeneralizedTimeName], by simp [readPart]⟩
      · split at h
        · rename_i h1 h2
          subst h2
          obtain ⟨rfl, rfl⟩ := pure_some.1 h
          refine ⟨fin _ (by constructor <;> decide), fun p hp1 hp2 hp3 => ?_⟩
          exact ⟨rfl, rfl, rfl, rfl, rfl, rfl, rfl, by simp [readPart, hp1], by simp [readPart, hp2], by simp [readPart, hp2],
            by simp [readPart, hp2], by simp [readPart, hp2], by rw [key]; simp [readPart, UTCTimeName],
            by rw [key]; simp [readPart, UTCTimeName], by simp [readPart]⟩
        · rename_i h1 h2
          obtain ⟨rfl, rfl⟩ := pure_some.1 h
          refine ⟨by simp, fun p hp1 hp2 hp3 => ?_⟩
          refine ⟨rfl, rfl, rfl, rfl, rfl, rfl, rfl, by simp [hp1], by simp [hp2], by simp [hp2],
            by simp [hp2], by simp [hp2], ?_, ?_, by simp [hp3]⟩
          · rw [key]
            simp only [List.foldl_nil, hp3]
            exact ⟨fun h => by omega, fun h => absurd h h1⟩
          · rw [key]
            simp only [List.foldl_nil, hp3]
            exact ⟨fun h => by omega, fun h => absurd h h2⟩
  · rename_i k1 k2 k3 k4
    obtain ⟨rfl, rfl⟩ := pure_some.1 h
    refine ⟨by simp, fun p hp1 hp2 hp3 => ?_⟩
    simp only [List.foldl_nil]
    refine ⟨rfl, rfl, rfl, rfl, rfl, rfl, rfl, ?_, ?_, ?_, ?_, by simp [hp2], ?_, ?_, by simp [hp3]⟩
    · simp only [hp1, Bool.false_eq_true, false_iff]
      rintro (⟨a, b, h⟩ | ⟨t', h⟩)
      · exact k2 _ _ h
      · exact k3 _ h
    · simp only [hp2]
      exact ⟨fun h => by omega, fun h => absurd h (k1 _)⟩
    · simp only [hp2]
      exact ⟨fun h => by omega, fun h => absurd h (k1 _)⟩
    · simp only [hp2]
      exact ⟨fun h => by omega, fun h => absurd h (k1 _)⟩
    · simp only [hp3]
      exact ⟨fun h => by omega, fun ⟨a, _, h, _⟩ => absurd h (k4 a)⟩
    · simp only [hp3]
      exact ⟨fun h => by omega, fun ⟨a, _, h, _⟩ => absurd h (k4 a)⟩

/-- The meaning of the tag of a generated field. -/
theorem tag_meaning {c : GenCtx} {name : Str} {t : MTy} {o : Bool} {d : Option (Value DefinedValue)} {lit : Option Str} {log : List Event}
    (h : asn1TagFromType c name t o d = some (lit, log)) (he : errorsOf log = [])
    (hn : ∀ cls n k, (cls, .number n, k) ∈ tagsAround c.tagDefault t → GoInt n) (hd : ∀ n, d = some (.number n) → GoInt n) :
    TagMeaning c.assignments c.tagDefault t o d (fieldParams lit) := by
  unfold asn1TagFromType at h
  replace h := bind_some.1 h
  obtain ⟨y, l1, l2, h1, h, rfl⟩ := h
  replace h := bind_some.1 h
  obtain ⟨ks, l3, l4, h2, h, rfl⟩ := h
  obtain ⟨rfl, rfl⟩ := pure_some.1 h
  simp only [errors_append] at he
  obtain ⟨hp1, hr1⟩ := tagComponents_read t y l1 h1 he.1 hn
  obtain ⟨hp2, hr2⟩ := kind_read h2
  obtain ⟨-, -, hcore⟩ := tagComponents_spec t y l1 h1
  rw [fieldParams_literal]
  · rw [List.foldl_append, List.foldl_append, option_read o d hd]
    have q1 := hr1 { optional := o || d.isSome, dflt := defaultNumber d }
    generalize y.1.foldl readPart { optional := o || d.isSome, dflt := defaultNumber d } = p1 at q1 ⊢
    have q2 := hr2 p1 q1.set q1.strings q1.times
    generalize ks.foldl readPart p1 = p2 at q2 ⊢
    have hc : ∀ c', Core t c' ↔ y.2 = c' := by
      intro c'
      rw [core_iff, ← core_iff.1 hcore]
    refine ⟨?_, ?_, ?_, ?_, ?_, ?_, ?_, ?_, ?_, ?_, q2.strings, ?_, ?_, q2.times, ?_⟩
    · rw [q2.optional, q1.optional]
      simp [Option.isSome_iff_ne_none]
    · intro n
      rw [q2.dflt, q1.dflt]
      simp only
      cases d with
      | none => simp [defaultNumber]
      | some v => cases v <;> simp [defaultNumber]
    · intro n
      rw [q2.tag]
      rcases q1.tag with ⟨h0, h1⟩ | ⟨cls, m, k, h0, h1⟩
      · rw [h0, h1]
        simp
      · rw [h0, h1]
        constructor
        · intro h
          cases h
          exact ⟨cls, k, rfl⟩
        · rintro ⟨cls', k', h⟩
          cases h
          rfl
    · rw [q2.explicit, q1.explicit]
      simp
    · rw [q2.application, q1.application]
      simp
    · rw [q2.isPrivate, q1.isPrivate]
      simp
    · rw [q2.set]; simp only [hc]
    · rw [q2.ia5, hc]
    · rw [q2.numeric, hc]
    · rw [q2.utf8, hc]
    · rw [q2.generalized]; simp only [hc]
    · rw [q2.utc]; simp only [hc]
    · rw [q2.omitEmpty, q1.omitEmpty]
  · intro s hs
    rcases List.mem_append.1 hs with hs | hs
    · rcases List.mem_append.1 hs with hs | hs
      · exact option_parts o d s hs
      · exact hp1 s hs
    · exact hp2 s hs

/-! ### The parts of a tag -/

theorem splitCommas_end : ∀ {a : Str}, ',' ∉ a → splitCommas a = [a]
  | [], _ => rfl
  | c :: a, h => by
    simp only [List.mem_cons, not_or] at h
    rw [splitCommas, if_neg (fun e => h.1 e.symm), splitCommas_end h.2]

theorem splitCommas_mid : ∀ {a : Str} (b : Str), ',' ∉ a → splitCommas (a ++ ',' :: b) = a :: splitCommas b
  | [], b, _ => by simp [splitCommas]
  | c :: a, b, h => by
    simp only [List.mem_cons, not_or] at h
    rw [List.cons_append, splitCommas, if_neg (fun e => h.1 e.symm), splitCommas_mid b h.2]

theorem splitCommas_join : ∀ (l : List Str), l ≠ [] → (∀ s ∈ l, Part s) → splitCommas (joinStr (c! ",") l) = l
  | [], h, _ => absurd rfl h
  | [a], _, h => by rw [joinStr]; exact splitCommas_end (h a (by simp)).2
  | a :: b :: l, _, h => by
    rw [joinStr, List.append_assoc]
    · show splitCommas (a ++ ',' :: joinStr (c! ",") (b :: l)) = _
      rw [splitCommas_mid _ (h a (by simp)).2, splitCommas_join (b :: l) (by simp) (fun s hs => h s (by simp [hs]))]
    · simp

theorem tagParts_literal {l : List Str} (h : ∀ s ∈ l, Part s) : tagParts (tagLiteral l) = l := by
  unfold tagLiteral
  cases l with
  | nil => rfl
  | cons a l =>
    simp only [List.isEmpty_cons, Bool.false_eq_true, if_false, tagParts]
    rw [asn1Key_tag]
    exact splitCommas_join _ (by simp) h

/-- A part that is not `optional`. -/
def Other (s : Str) : Prop := Part s ∧ s ≠ c! "optional"

theorem explicit_other (kind : Int) : ∀ s ∈ (if kind = TAGS_EXPLICIT then [c! "explicit"] else []), s ≠ c! "optional" := by
  intro s hs
  split at hs
  · rw [List.mem_singleton.1 hs]; decide
  · simp at hs

theorem tagComponents_other {c : GenCtx} {name : Str} : ∀ (t : MTy) (x : List Str × MTy) (log : List Event),
    tagComponents c name t = some (x, log) → ∀ s ∈ x.1, Other s := by
  refine wrapInduct ?_ ?_ ?_
  · intro g t k hh ih x log h
    rw [tagComponents] at h
    replace h := bind_some.1 h
    obtain ⟨ex, l1, l2, h1, h, rfl⟩ := h
    replace h := bind_some.1 h
    obtain ⟨num, l3, l4, h2, h, rfl⟩ := h
    replace h := bind_some.1 h
    obtain ⟨y, l5, l6, h3, h, rfl⟩ := h
    obtain ⟨rfl, rfl⟩ := pure_some.1 h
    intro s hs
    rcases List.mem_append.1 hs with hs | hs
    · rcases List.mem_append.1 hs with hs | hs
      · rcases List.mem_append.1 hs with hs | hs
        · refine ⟨class_parts _ s hs, ?_⟩
          unfold classComponents at hs
          split at hs
          · rw [List.mem_singleton.1 hs]; decide
          · split at hs
            · rw [List.mem_singleton.1 hs]; decide
            · simp at hs
        · obtain ⟨-, -, rfl⟩ := explicit_spec h1
          refine ⟨explicit_parts _ s hs, explicit_other _ s hs⟩
      · rcases tagNumber_spec h2 with ⟨n, hn, rfl, rfl⟩ | ⟨hn, rfl, rfl⟩
        · rw [List.mem_singleton.1 hs]
          exact ⟨part_tag n, ne_of_head (by decide)⟩
        · simp at hs
    · exact ih _ _ h3 s hs
  · intro t y ih x log h
    rw [tagComponents] at h
    exact ih x log h
  · intro t h1 h2 x log h
    have e1 : tagComponents c name t = pure ([], t) := by
      cases t <;> first | rfl | exact absurd rfl (h1 _ _ _ _) | exact absurd rfl (h2 _ _)
    rw [e1] at h
    obtain ⟨rfl, rfl⟩ := pure_some.1 h
    simp

theorem kind_other {c : GenCtx} {t : MTy} {x : List Str} {log : List Event} (h : kindComponents c t = some (x, log)) :
    ∀ s ∈ x, Other s := by
  intro s hs
  refine ⟨(kind_read h).1 s hs, ?_⟩
  unfold kindComponents at h
  repeat' split at h
  all_goals first
    | (obtain ⟨rfl, rfl⟩ := pure_some.1 h
       first
         | (rw [List.mem_singleton.1 hs]; decide)
         | (simp at hs))
    | (exact absurd h (by simp))

theorem option_count (o : Bool) (d : Option (Value DefinedValue)) :
    (optionComponents o d).count (c! "optional") = if o = true ∨ d ≠ none then 1 else 0 := by
  unfold optionComponents
  have hd : ∀ n : Int, (c! "default:" ++ intStr n == c! "optional") = false := by
    intro n
    have : (c! "default:" ++ intStr n) ≠ c! "optional" := ne_of_head (by decide)
    simpa using this
  cases o with
  | true =>
    cases d with
    | none => decide
    | some v =>
      cases v <;> simp [List.count_cons, List.count_append, hd]
  | false =>
    cases d with
    | none => decide
    | some v => cases v <;> simp [List.count_cons, List.count_append, hd]

theorem tag_optional {c : GenCtx} {name : Str} {t : MTy} {o : Bool} {d : Option (Value DefinedValue)} {lit : Option Str} {log : List Event}
    (h : asn1TagFromType c name t o d = some (lit, log)) :
    (tagParts lit).count (c! "optional") = if o = true ∨ d ≠ none then 1 else 0 := by
  unfold asn1TagFromType at h
  replace h := bind_some.1 h
  obtain ⟨y, l1, l2, h1, h, rfl⟩ := h
  replace h := bind_some.1 h
  obtain ⟨ks, l3, l4, h2, h, rfl⟩ := h
  obtain ⟨rfl, rfl⟩ := pure_some.1 h
  have ho1 := tagComponents_other t y l1 h1
  have ho2 := kind_other h2
  have hp : ∀ s ∈ optionComponents o d ++ y.1 ++ ks, Part s := by
    intro s hs
    rcases List.mem_append.1 hs with hs | hs
    · rcases List.mem_append.1 hs with hs | hs
      · exact option_parts o d s hs
      · exact (ho1 s hs).1
    · exact (ho2 s hs).1
  rw [tagParts_literal hp, List.count_append, List.count_append, option_count,
    List.count_eq_zero.2 (fun hm => (ho1 _ hm).2 rfl), List.count_eq_zero.2 (fun hm => (ho2 _ hm).2 rfl), Nat.add_zero]

end Asn1go.CG
