import Verif.Proofs.Codegen.Wire
import Verif.Props.Stream
import Verif.Props.Renamed

/-! Names do not matter for what is written and read: C96. -/

namespace Asn1go.Props

open Spec CG Enco Deco

/-! ### C96: names and octets -/

mutual

/-- Go values that are equal but for the names of fields, which are renamed, and those of slice types, which both end in `SET` or both do not. -/
inductive SameBut (u : Casing) (ident : Str → Str) : GoVal → GoVal → Prop
  | same (v : GoVal) : SameBut u ident v v
  | slice (n n' : Str) (z : Bool) (l l' : List GoVal) : (c! "SET" <:+ n ↔ c! "SET" <:+ n') → SameElems u ident l l' → SameBut u ident (.slice n z l) (.slice n' z l')
  | struct (l l' : List GoFieldVal) : SameFields u ident l l' → SameBut u ident (.struct l) (.struct l')

/-- The same for elements. -/
inductive SameElems (u : Casing) (ident : Str → Str) : List GoVal → List GoVal → Prop
  | nil : SameElems u ident [] []
  | cons (v v' : GoVal) (l l' : List GoVal) : SameBut u ident v v' → SameElems u ident l l' → SameElems u ident (v :: l) (v' :: l')

/-- The same for fields. -/
inductive SameFields (u : Casing) (ident : Str → Str) : List GoFieldVal → List GoFieldVal → Prop
  | nil : SameFields u ident [] []
  | cons (n : Str) (tag : Option Str) (v v' : GoVal) (l l' : List GoFieldVal) : SameBut u ident v v' → SameFields u ident l l' →
      SameFields u ident (.mk (goifyName u n) tag v :: l) (.mk (goifyName u (ident n)) tag v' :: l')

end

/-- Two files with renamed types. -/
structure Files (u : Casing) (ident : Str → Str) (g : Str → Str → Prop) (f f' : GoFile) : Prop where
  own : ∀ x x', g x x' → x ∉ ownNames ∧ x' ∉ ownNames
  one : ∀ x x' x'', g x x' → g x x'' → x' = x''
  decl : ∀ x a e, Declares f ⟨x, a, e⟩ → ∃ x' e', g x x' ∧ Declares f' ⟨x', a, e'⟩ ∧ TypeNew g ident u e e' ∧
    (a = false → isStruct e = true ∨ (c! "SET" <:+ x ∧ c! "SET" <:+ x'))
  pre : ∀ n ∈ predeclared, n ∉ declared f'.decls
  shown : ∀ n, exported u (goifyName u n) = true → exported u (goifyName u (ident n)) = true

/-- Kinds of types, renamed. -/
inductive KindNew (g : Str → Str → Prop) (ident : Str → Str) (u : Casing) : Str → Str → GoKind → GoKind → Prop
  | same (n n' : Str) (k : GoKind) : (∀ e, k ≠ .slice e) → (∀ fs, k ≠ .struct fs) → KindNew g ident u n n' k k
  | slice (n n' : Str) (e e' : GoExpr) : (c! "SET" <:+ n ↔ c! "SET" <:+ n') → TypeNew g ident u e e' → KindNew g ident u n n' (.slice e) (.slice e')
  | struct (n n' : Str) (fs fs' : List GoField) : FieldsNew g ident u fs fs' → KindNew g ident u n n' (.struct fs) (.struct fs')

section

variable {u : Casing} {ident : Str → Str} {g : Str → Str → Prop} {f f' : GoFile}

theorem KindNew.tag {n n' : Str} {k k' : GoKind} (h : KindNew g ident u n n' k k') : kindTag n k = kindTag n' k' := by
  cases h with
  | same _ h1 h2 =>
    cases k with
    | slice e => exact absurd rfl (h1 e)
    | struct fs => exact absurd rfl (h2 fs)
    | _ => rfl
  | slice _ _ h => simp only [kindTag, h]
  | struct => rfl

theorem KindNew.plain {n n' : Str} {k k' : GoKind} (h : KindNew g ident u n n' k k') (hp : k.plain) : k'.plain := by
  cases h with
  | same => exact hp
  | slice => trivial
  | struct => trivial

theorem under_new (hf : Files u ident g f f') {e : GoExpr} {n : Str} {k : GoKind} (h : Underlies f e n k) : ∀ {e' : GoExpr}, TypeNew g ident u e e' →
    ∃ n' k', Underlies f' e' n' k' ∧ KindNew g ident u n n' k k' := by
  have no : ∀ {x x' : Str}, g x x' → x ∈ ownNames → False := fun h1 h2 => (hf.own _ _ h1).1 h2
  have no' : ∀ {x x' : Str}, g x x' → x' ∈ ownNames → False := fun h1 h2 => (hf.own _ _ h1).2 h2
  induction h with
  | bool hp =>
    intro e' ht
    cases ht with
    | own => exact ⟨_, _, .bool (hf.pre _ (by decide)), .same _ _ _ (by simp) (by simp)⟩
    | name _ _ h => exact (no h (by decide)).elim
  | int64 hp =>
    intro e' ht
    cases ht with
    | own => exact ⟨_, _, .int64 (hf.pre _ (by decide)), .same _ _ _ (by simp) (by simp)⟩
    | name _ _ h => exact (no h (by decide)).elim
  | float64 hp =>
    intro e' ht
    cases ht with
    | own => exact ⟨_, _, .float64 (hf.pre _ (by decide)), .same _ _ _ (by simp) (by simp)⟩
    | name _ _ h => exact (no h (by decide)).elim
  | string hp =>
    intro e' ht
    cases ht with
    | own => exact ⟨_, _, .string (hf.pre _ (by decide)), .same _ _ _ (by simp) (by simp)⟩
    | name _ _ h => exact (no h (by decide)).elim
  | bytes hp =>
    intro e' ht
    cases ht with
    | array _ _ ht =>
      cases ht with
      | own => exact ⟨_, _, .bytes (hf.pre _ (by decide)), .same _ _ _ (by simp) (by simp)⟩
      | name _ _ h => exact (no h (by decide)).elim
  | big => intro e' ht; cases ht; exact ⟨_, _, .big, .same _ _ _ (by simp) (by simp)⟩
  | bits =>
    intro e' ht
    cases ht with
    | own => exact ⟨_, _, .bits, .same _ _ _ (by simp) (by simp)⟩
    | name _ _ h => exact (no h (by decide)).elim
  | enumerated =>
    intro e' ht
    cases ht with
    | own => exact ⟨_, _, .enumerated, .same _ _ _ (by simp) (by simp)⟩
    | name _ _ h => exact (no h (by decide)).elim
  | oid =>
    intro e' ht
    cases ht with
    | own => exact ⟨_, _, .oid, .same _ _ _ (by simp) (by simp)⟩
    | name _ _ h => exact (no h (by decide)).elim
  | time =>
    intro e' ht
    cases ht with
    | own => exact ⟨_, _, .time, .same _ _ _ (by simp) (by simp)⟩
    | name _ _ h => exact (no h (by decide)).elim
  | raw =>
    intro e' ht
    cases ht with
    | own => exact ⟨_, _, .raw, .same _ _ _ (by simp) (by simp)⟩
    | name _ _ h => exact (no h (by decide)).elim
  | iface => intro e' ht; cases ht; exact ⟨_, _, .iface, .same _ _ _ (by simp) (by simp)⟩
  | slice e he =>
    intro e' ht
    cases ht with
    | array _ e1 ht =>
      refine ⟨_, _, .slice e1 ?_, .slice _ _ _ _ Iff.rfl ht⟩
      rintro rfl
      cases ht with
      | own => exact he rfl
      | name _ _ h => exact no' h (by decide)
  | struct fs =>
    intro e' ht
    cases ht with
    | struct _ fs' h => exact ⟨_, _, .struct fs', .struct _ _ _ _ h⟩
  | «alias» x m e k hd _ ih =>
    intro e' ht
    obtain ⟨x', e1, h1, h2, h3, -⟩ := hf.decl _ _ _ hd
    cases ht with
    | own _ h => exact (no h1 h).elim
    | name _ _ h =>
      obtain rfl := hf.one _ _ _ h h1
      obtain ⟨n', k', h4, h5⟩ := ih h3
      exact ⟨n', k', .alias _ _ _ _ h2 h4, h5⟩
  | defined x m e k hd hu hp ih =>
    intro e' ht
    obtain ⟨x', e1, h1, h2, h3, h3'⟩ := hf.decl _ _ _ hd
    cases ht with
    | own _ h => exact (no h1 h).elim
    | name _ _ h =>
      obtain rfl := hf.one _ _ _ h h1
      obtain ⟨n', k', h4, h5⟩ := ih h3
      refine ⟨_, k', .defined _ _ _ _ h2 h4 (h5.plain hp), ?_⟩
      cases h5 with
      | same _ q1 q2 => exact .same _ _ _ q1 q2
      | struct _ _ q => exact .struct _ _ _ _ q
      | slice _ _ _ q =>
        rcases h3' rfl with h6 | ⟨h6, h7⟩
        · cases e with
          | struct fs => cases hu
          | _ => cases h6
        · exact .slice _ _ _ _ ⟨fun _ => h7, fun _ => h6⟩ q

mutual

theorem zero_new (hf : Files u ident g f f') {n : Str} {k : GoKind} {z : GoVal} : Zero f n k z → ∀ {n' : Str} {k' : GoKind}, KindNew g ident u n n' k k' →
    ∃ z', Zero f' n' k' z' ∧ SameBut u ident z z'
  | .bool _, _, _, h => by cases h; exact ⟨_, .bool _, .same _⟩
  | .int _, _, _, h => by cases h; exact ⟨_, .int _, .same _⟩
  | .string _, _, _, h => by cases h; exact ⟨_, .string _, .same _⟩
  | .bytes _, _, _, h => by cases h; exact ⟨_, .bytes _, .same _⟩
  | .big _, _, _, h => by cases h; exact ⟨_, .big _, .same _⟩
  | .bits _, _, _, h => by cases h; exact ⟨_, .bits _, .same _⟩
  | .enum _, _, _, h => by cases h; exact ⟨_, .enum _, .same _⟩
  | .oid _, _, _, h => by cases h; exact ⟨_, .oid _, .same _⟩
  | .time _, _, _, h => by cases h; exact ⟨_, .time _, .same _⟩
  | .raw _, _, _, h => by cases h; exact ⟨_, .raw _, .same _⟩
  | .iface _, _, _, h => by cases h; exact ⟨_, .iface _, .same _⟩
  | .slice _ e, _, _, h => by
    cases h with
    | same _ h1 => exact absurd rfl (h1 e)
    | slice _ e' h1 h2 => exact ⟨_, .slice _ e', .slice _ _ _ _ _ h1 .nil⟩
  | .struct _ fs vs h1, _, _, h => by
    cases h with
    | same _ _ h2 => exact absurd rfl (h2 fs)
    | struct _ fs' h2 =>
      obtain ⟨vs', h3, h4⟩ := zeros_new hf h1 h2
      exact ⟨_, .struct _ _ _ h3, .struct _ _ h4⟩

theorem zeros_new (hf : Files u ident g f f') {fs : List GoField} {vs : List GoFieldVal} : ZeroFields f fs vs → ∀ {fs' : List GoField}, FieldsNew g ident u fs fs' →
    ∃ vs', ZeroFields f' fs' vs' ∧ SameFields u ident vs vs'
  | .nil, _, h => by cases h; exact ⟨_, .nil, .nil⟩
  | .cons _ e tag m k v fs vs h1 h2 h3, _, h => by
    cases h with
    | cons x _ e' _ _ fs' h4 h5 =>
      obtain ⟨n', k', h6, h7⟩ := under_new hf h1 h4
      obtain ⟨z', h8, h9⟩ := zero_new hf h2 h7
      obtain ⟨vs', h10, h11⟩ := zeros_new hf h3 h5
      exact ⟨_, .cons _ _ _ _ _ _ _ _ h6 h8 h10, .cons _ _ _ _ _ _ h9 h11⟩

end

theorem setDefault_new (p : FieldParams) {z z' : GoVal} (h : SameBut u ident z z') : SameBut u ident (setDefault p z) (setDefault p z') := by
  cases h with
  | same => exact .same _
  | slice _ _ _ _ _ h1 h2 => exact .slice _ _ _ _ _ h1 h2
  | struct _ _ h => exact .struct _ _ h

theorem lacks_new {p : FieldParams} {n n' : Str} {k k' : GoKind} {b : Bytes} (h : KindNew g ident u n n' k k') (hl : Lacks p n k b) : Lacks p n' k' b := by
  cases hl with
  | tag _ tag c _ h1 h2 => exact .tag _ tag c _ (h.tag ▸ h1) h2
  | raw _ h1 => cases h; exact .raw _ h1
  | iface => cases h; exact .iface

mutual

theorem decodes_new (hf : Files u ident g f f') {e : GoExpr} {p : FieldParams} {b : Bytes} {v : GoVal} {rest : Bytes} : Decodes f u e p b v rest →
    ∀ {e' : GoExpr}, TypeNew g ident u e e' → ∃ v', Decodes f' u e' p b v' rest ∧ SameBut u ident v v'
  | .missing _ _ _ n k z h1 h2 h3 h4, _, h => by
    obtain ⟨n', k', h5, h6⟩ := under_new hf h1 h
    obtain ⟨z', h7, h8⟩ := zero_new hf h4 h6
    exact ⟨_, .missing _ _ _ _ _ _ h5 (lacks_new h6 h2) h3 h7, setDefault_new _ h8⟩
  | .raw _ _ _ n x c _ h1 h2, _, h => by
    obtain ⟨n', k', h5, h6⟩ := under_new hf h1 h
    cases h6
    exact ⟨_, .raw _ _ _ _ _ _ _ h5 h2, .same _⟩
  | .iface _ _ _ n x l _ h1 h2 h3 h4, _, h => by
    obtain ⟨n', k', h5, h6⟩ := under_new hf h1 h
    cases h6
    exact ⟨_, .iface _ _ _ _ _ _ _ h5 h2 h3 h4, .same _⟩
  | .element _ _ _ n k tag comp t c _ _ h1 h2 h3 h4, _, h => by
    obtain ⟨n', k', h5, h6⟩ := under_new hf h1 h
    obtain ⟨v', h7, h8⟩ := body_new hf h4 h6
    exact ⟨_, .element _ _ _ _ _ _ _ _ _ _ _ h5 (h6.tag ▸ h2) h3 h7, h8⟩

theorem body_new (hf : Files u ident g f f') {n : Str} {k : GoKind} {t : Nat} {c : Bytes} {v : GoVal} : ReadsBody f u n k t c v →
    ∀ {n' : Str} {k' : GoKind}, KindNew g ident u n n' k k' → ∃ v', ReadsBody f' u n' k' t c v' ∧ SameBut u ident v v'
  | .simple _ _ _ _ _ h1, _, _, h => by
    cases h with
    | same => exact ⟨_, .simple _ _ _ _ _ h1, .same _⟩
    | slice => cases h1
    | struct => cases h1
  | .struct _ fs _ _ rest vs h1, _, _, h => by
    cases h with
    | same _ _ h2 => exact absurd rfl (h2 fs)
    | struct _ fs' h2 =>
      obtain ⟨vs', h3, h4⟩ := fields_new hf h1 h2
      exact ⟨_, .struct _ _ _ _ _ _ h3, .struct _ _ h4⟩
  | .slice _ e _ _ vs m k h1 h2 h3, _, _, h => by
    cases h with
    | same _ h4 => exact absurd rfl (h4 e)
    | slice _ e' h4 h5 =>
      obtain ⟨m', k', h6, h7⟩ := under_new hf h1 h5
      obtain ⟨vs', h8, h9⟩ := elems_new hf h3 h5
      refine ⟨_, .slice _ _ _ _ _ _ _ h6 ?_ h8, .slice _ _ _ _ _ h4 h9⟩
      rcases h2 with rfl | h2
      · cases h7; exact .inl rfl
      · exact .inr (h7.tag ▸ h2)

theorem fields_new (hf : Files u ident g f f') {fs : List GoField} {b : Bytes} {vs : List GoFieldVal} {rest : Bytes} : ReadsFields f u fs b vs rest →
    ∀ {fs' : List GoField}, FieldsNew g ident u fs fs' → ∃ vs', ReadsFields f' u fs' b vs' rest ∧ SameFields u ident vs vs'
  | .nil _, _, h => by cases h; exact ⟨_, .nil _, .nil⟩
  | .cons _ e tag fs b b' rest v vs h1 h2 h3, _, h => by
    cases h with
    | cons x _ e' _ _ fs' h4 h5 =>
      obtain ⟨v', h6, h7⟩ := decodes_new hf h2 h4
      obtain ⟨vs', h8, h9⟩ := fields_new hf h3 h5
      exact ⟨_, .cons _ _ _ _ _ _ _ _ _ (hf.shown _ h1) h6 h8, .cons _ _ _ _ _ _ h7 h9⟩

theorem elems_new (hf : Files u ident g f f') {e : GoExpr} {b : Bytes} {vs : List GoVal} : ReadsElems f u e b vs →
    ∀ {e' : GoExpr}, TypeNew g ident u e e' → ∃ vs', ReadsElems f' u e' b vs' ∧ SameElems u ident vs vs'
  | .nil _, _, _ => ⟨_, .nil _, .nil⟩
  | .cons _ b b' v vs h1 h2 h3, _, h => by
    obtain ⟨v', h6, h7⟩ := decodes_new hf h2 h
    obtain ⟨vs', h8, h9⟩ := elems_new hf h3 h
    exact ⟨_, .cons _ _ _ _ _ h1 h6 h8, .cons _ _ _ _ h7 h9⟩

end

/-! ### Writing -/

mutual

theorem isZero_new {v v' : GoVal} : SameBut u ident v v' → v.isZero = v'.isZero
  | .same _ => rfl
  | .slice _ _ _ _ _ _ _ => rfl
  | .struct _ _ h => by simp only [GoVal.isZero]; exact fieldsZero_new h

theorem fieldsZero_new {l l' : List GoFieldVal} : SameFields u ident l l' → fieldsZero l = fieldsZero l'
  | .nil => rfl
  | .cons _ _ _ _ _ _ h h' => by simp only [fieldsZero]; rw [isZero_new h, fieldsZero_new h']

end

theorem elems_empty {l l' : List GoVal} (h : SameElems u ident l l') : l.isEmpty = l'.isEmpty := by cases h <;> rfl

theorem leftOut_new {v v' : GoVal} (h : SameBut u ident v v') (p : FieldParams) : leftOut p v = leftOut p v' := by
  have hz := isZero_new h
  cases h with
  | same => rfl
  | slice _ _ _ _ _ _ h => simp only [leftOut, elems_empty h, hz]
  | struct _ _ h => simp only [leftOut, hz]

theorem makeValue_slice {n n' : Str} {z : Bool} {l l' : List GoVal} (hn : c! "SET" <:+ n ↔ c! "SET" <:+ n') (h : SameElems u ident l l') (p : FieldParams)
    (x : Option (List Bytes)) : makeValue p (.slice n z l) x = makeValue p (.slice n' z l') x := by
  have := leftOut_new (.slice n n' z l l' hn h) p
  simp only [makeValue, this, universalType, hn, chooseTag, valueTag, makeBody]
  rfl

theorem makeValue_struct {l l' : List GoFieldVal} (h : SameFields u ident l l') (p : FieldParams)
    (x : Option (List Bytes)) : makeValue p (.struct l) x = makeValue p (.struct l') x := by
  have := leftOut_new (.struct l l' h) p
  simp only [makeValue, this, universalType, chooseTag, valueTag, makeBody]
  rfl

theorem makeValue_none {p : FieldParams} {v : GoVal} {b : Bytes} (hv : (∃ n z l, v = .slice n z l) ∨ ∃ l, v = .struct l) (h : makeValue p v none = some b)
    (x : Option (List Bytes)) : makeValue p v x = some b := by
  unfold makeValue at h ⊢
  split at h
  next h1 => rw [if_pos h1]; exact h
  next h1 =>
    exfalso
    rcases hv with ⟨n, z, l, rfl⟩ | ⟨l, rfl⟩
    · simp only [universalType, makeBody, Option.map_none] at h
      split at h <;> cases h
    · simp only [universalType, makeBody, Option.map_none] at h
      split at h <;> cases h

mutual

theorem makeField_new (hs : ∀ n, exported u (goifyName u n) = true → exported u (goifyName u (ident n)) = true) {v v' : GoVal} {p : FieldParams} {b : Bytes} :
    SameBut u ident v v' → makeField u v p = some b → makeField u v' p = some b
  | .same _, h => h
  | .slice n n' z l l' h1 h2, h => by
    unfold makeField at h ⊢
    rw [← makeValue_slice h1 h2]
    cases hc : makeElems u l with
    | none => rw [hc] at h; exact makeValue_none (.inl ⟨_, _, _, rfl⟩) h _
    | some x => rw [makeElems_new hs h2 hc, ← hc]; exact h
  | .struct l l' h2, h => by
    unfold makeField at h ⊢
    rw [← makeValue_struct h2]
    cases hc : makeFields u l with
    | none => rw [hc] at h; exact makeValue_none (.inr ⟨_, rfl⟩) h _
    | some x => rw [makeFields_new hs h2 hc, ← hc]; exact h

theorem makeElems_new (hs : ∀ n, exported u (goifyName u n) = true → exported u (goifyName u (ident n)) = true) {l l' : List GoVal} {x : List Bytes} :
    SameElems u ident l l' → makeElems u l = some x → makeElems u l' = some x
  | .nil, h => h
  | .cons v v' l l' h1 h2, h => by
    unfold makeElems at h ⊢
    cases hc : makeField u v {} with
    | none => rw [hc] at h; cases h
    | some y =>
      cases hd : makeElems u l with
      | none => rw [hc, hd] at h; cases h
      | some ys => rw [makeField_new hs h1 hc, makeElems_new hs h2 hd, ← hc, ← hd]; rwa [hc, hd] at h ⊢

theorem makeFields_new (hs : ∀ n, exported u (goifyName u n) = true → exported u (goifyName u (ident n)) = true) {l l' : List GoFieldVal} {x : List Bytes} :
    SameFields u ident l l' → makeFields u l = some x → makeFields u l' = some x
  | .nil, h => h
  | .cons n tag v v' l l' h1 h2, h => by
    unfold makeFields at h ⊢
    split at h
    next he =>
      rw [if_pos (hs n he)]
      cases hc : makeField u v (fieldParams tag) with
      | none => rw [hc] at h; cases h
      | some y =>
        cases hd : makeFields u l with
        | none => rw [hc, hd] at h; cases h
        | some ys => rw [makeField_new hs h1 hc, makeFields_new hs h2 hd]; rwa [hc, hd] at h
    · cases h

end

end

/-! ### The files of modules -/

/-- The Go names of the types of a module, and of the types behind SET types, before and after renaming. -/
def NewName (u : Casing) (ref : Str → Str) (l : List MAssignment) (x x' : Str) : Prop :=
  ∃ n ∈ typeNames l, (x = goifyName u n ∧ x' = goifyName u (ref n)) ∨
    (x = goifyName u n ++ c! "SET" ∧ x' = goifyName u (ref n) ++ c! "SET" ∧ n ++ c! "SET" ∉ typeNames l)

theorem typeNames_renamed {ref ident : Str → Str} {n : Str} : ∀ {l l' : List MAssignment}, List.Forall₂ (AssignmentRenamed ref ident) l l' → n ∈ typeNames l → ref n ∈ typeNames l'
  | _, _, .nil, h => by cases h
  | _, _, .cons h t, hn => by
    cases h with
    | type r s s' h =>
      simp only [typeNames, List.filterMap_cons, List.mem_cons] at hn ⊢
      rcases hn with rfl | hn
      · exact .inl rfl
      · exact .inr (typeNames_renamed t hn)
    | value r s s' v v' h h' =>
      simp only [typeNames, List.filterMap_cons] at hn ⊢
      exact typeNames_renamed t hn

theorem newName_one {u : Casing} {ref : Str → Str} {l : List MAssignment} (hw : WellNamed u l) {x x' x'' : Str} (h : NewName u ref l x x') (h' : NewName u ref l x x'') :
    x' = x'' := by
  have no : ∀ {a b : Str}, a ∈ typeNames l → b ∈ typeNames l → goifyName u a = goifyName u b ++ c! "SET" → b ++ c! "SET" ∉ typeNames l → False := by
    intro a b ha hb he hs
    have h1 := hw.typeName a ha
    have h2 := hw.typeName b hb
    rw [goify_upper h1, goify_upper h2] at he
    have h3 : a = b ++ c! "SET" := map_under_inj (word_under h1.word) (by
      intro c hc
      rcases List.mem_append.1 hc with hc | hc
      · exact word_under h2.word c hc
      · rintro rfl; simp at hc) (by rw [he, List.map_append]; rfl)
    exact hs (h3 ▸ ha)
  obtain ⟨n, hn, ⟨rfl, rfl⟩ | ⟨rfl, rfl, hs⟩⟩ := h
  · obtain ⟨n', hn', ⟨h1, rfl⟩ | ⟨h1, rfl, hs⟩⟩ := h'
    · rw [goify_upper_inj (hw.typeName _ hn) (hw.typeName _ hn') h1]
    · exact (no hn hn' h1 hs).elim
  · obtain ⟨n', hn', ⟨h1, rfl⟩ | ⟨h1, rfl, -⟩⟩ := h'
    · exact (no hn' hn h1.symm hs).elim
    · rw [goify_upper_inj (hw.typeName _ hn) (hw.typeName _ hn') (List.append_cancel_right h1)]

theorem own_cases {x : Str} (h : x ∈ ownNames) : x ∈ predeclared ∨ '.' ∈ x := by
  revert x
  decide

theorem decl_of {u : Casing} {l : List MAssignment} {d : Int} {r : Str} {specs : List GoTypeSpec} {as : List MAssignment} {ds : List GoDecl} (h : DeclsFor u l d r as ds)
    (hs : .type specs ∈ ds) : ∃ n t, .type n t ∈ as ∧ TypeDecl u l d r (goifyName u n) t (.type specs) := by
  induction h with
  | done => cases hs
  | type n t as dc v ds h1 h2 h3 ih =>
    rcases List.mem_cons.1 hs with rfl | hs
    · exact ⟨n, t, List.mem_cons_self .., h1⟩
    · rcases List.mem_append.1 hs with hs | hs
      · cases h2 <;> simp at hs
      · obtain ⟨n', t', h4, h5⟩ := ih hs
        exact ⟨n', t', List.mem_cons_of_mem _ h4, h5⟩
  | value n t v as ty e ds h1 h2 h3 ih =>
    rcases List.mem_cons.1 hs with hs | hs
    · cases hs
    · obtain ⟨n', t', h4, h5⟩ := ih hs
      exact ⟨n', t', List.mem_cons_of_mem _ h4, h5⟩
  | skip n t v as ds h1 h2 ih =>
    obtain ⟨n', t', h4, h5⟩ := ih hs
    exact ⟨n', t', List.mem_cons_of_mem _ h4, h5⟩
  | nil as ds h1 ih =>
    obtain ⟨n', t', h4, h5⟩ := ih hs
    exact ⟨n', t', List.mem_cons_of_mem _ h4, h5⟩

/-- The parts of a file. -/
theorem file_types {u : Casing} {fuel : Nat} {p : GenParams} {m : Module} {f : GoFile} (h : generateFile u fuel p m = some (.ok f)) :
    ∃ ds log, generateDeclarations (onto ⟨u, fuel, m.tagDefault, [], p.integerRepr⟩ m.moduleBody.assignmentList) m.moduleBody.assignmentList = some (ds, log) ∧ errorsOf log = [] ∧
      ∀ specs, .type specs ∈ f.decls ↔ .type specs ∈ ds := by
  unfold generateFile at h
  split at h
  · cases h
  simp only at h
  split at h
  · cases h
  rename_i dl log hg
  split at h
  · cases h
  next he =>
    cases h
    exact ⟨dl, log, hg, not_not.1 he, fun specs => by simp⟩

theorem files_renamed {u : Casing} {fuel : Nat} {p : GenParams} {ref ident : Str → Str} (hk : Keeps ref) {m m' : Module} (hm : ModuleRenamed ref ident m m') {f f' : GoFile}
    (h : generateFile u fuel p m = some (.ok f)) (h' : generateFile u fuel p m' = some (.ok f')) (hn : NamesOk u m.moduleBody.assignmentList)
    (hn' : WellNamed u m'.moduleBody.assignmentList) (hs : ∀ n, exported u (goifyName u n) = true → exported u (goifyName u (ident n)) = true) :
    Files u ident (NewName u ref m.moduleBody.assignmentList) f f' := by
  have name : ∀ {u : Casing} {l : List MAssignment} {n : Str} (suffix : Str), WellNamed u l → n ∈ typeNames l → '.' ∉ suffix → goifyName u n ++ suffix ∉ ownNames := by
    intro u l n suffix hw hn hd ho
    obtain ⟨h1, h2⟩ := goify_upper_name (hw.typeName n hn) suffix hd
    exact (own_cases ho).elim h1 h2
  obtain ⟨ds, log, h1, h2, h3⟩ := file_types h
  obtain ⟨ds', log', h1', h2', h3'⟩ := file_types h'
  rw [← hm.tags] at h1'
  have key := decls_good (c := ⟨u, fuel, m.tagDefault, [], p.integerRepr⟩) (g := NewName u ref m.moduleBody.assignmentList) hk hm.list
    (fun n hn => ⟨n, hn, .inl ⟨rfl, rfl⟩⟩) hm.list _ _ _ _ h1 h1' h2
  refine ⟨?_, fun _ _ _ h h' => newName_one hn.named h h', ?_, ?_, hs⟩
  · rintro x x' ⟨n, h4, ⟨rfl, rfl⟩ | ⟨rfl, rfl, -⟩⟩
    · exact ⟨by simpa using name [] hn.named h4 (by simp), by simpa using name [] hn' (typeNames_renamed hm.list h4) (by simp)⟩
    · exact ⟨name _ hn.named h4 (by decide), name _ hn' (typeNames_renamed hm.list h4) (by decide)⟩
  · rintro x a e ⟨specs, h4, h5⟩
    obtain ⟨n, h6, d', h7, h8⟩ := key specs ((h3 specs).1 h4)
    generalize hd : GoDecl.type specs = dc at h8
    cases h8 with
    | type e1 e1' h9 =>
      cases hd
      cases List.mem_singleton.1 h5
      refine ⟨goifyName u (ref n), e1', ⟨n, h6, .inl ⟨rfl, rfl⟩⟩, ⟨_, (h3' _).2 h7, List.mem_singleton.2 rfl⟩, h9, fun h => .inl (by simpa using h)⟩
    | set e1 e1' h9 =>
      cases hd
      have hclash : n ++ c! "SET" ∉ typeNames m.moduleBody.assignmentList := by
        obtain ⟨dl, k1, -, k3, -, -, k6⟩ := file_parts h
        have k7 := h4
        rw [k1] at k7
        replace k7 := (List.mem_append.1 k7).resolve_left (by simp)
        obtain ⟨n', t, k8, k9⟩ := decl_of k6 k7
        generalize hq : GoDecl.type _ = q at k9
        cases k9 with
        | struct | «alias» => simp at hq
        | set e2 k10 =>
          simp only [GoDecl.type.injEq, List.cons.injEq, GoTypeSpec.mk.injEq] at hq
          obtain rfl := goify_upper_inj (hn.named.typeName n h6) (hn.named.typeName n' (mem_typeNames k8)) hq.2.1.1
          exact hn.noSetClash n t k8 k10
      have hset : NewName u ref m.moduleBody.assignmentList (goifyName u n ++ c! "SET") (goifyName u (ref n) ++ c! "SET") := ⟨n, h6, .inr ⟨rfl, rfl, hclash⟩⟩
      rcases List.mem_cons.1 h5 with h5 | h5
      · cases h5
        exact ⟨_, e1', hset, ⟨_, (h3' _).2 h7, List.mem_cons_self ..⟩, h9, fun _ => .inr ⟨⟨_, rfl⟩, ⟨_, rfl⟩⟩⟩
      · cases List.mem_singleton.1 h5
        exact ⟨_, _, ⟨n, h6, .inl ⟨rfl, rfl⟩⟩, ⟨_, (h3' _).2 h7, List.mem_cons_of_mem _ (List.mem_singleton.2 rfl)⟩, .name _ _ hset, nofun⟩
  · intro n hp
    obtain ⟨dl, -, k2, -, -, -, k6⟩ := file_parts h'
    rw [k2]
    exact predeclared_not hn' k6 hp

/-- C96: whatever is read into the types of a module is read from the same octets into those of the module with other names, with other names in the values. -/
theorem C96_reads (u : Casing) (fuel : Nat) (p : GenParams) (ref ident : Str → Str) (hk : Keeps ref) (m m' : Module) (hm : ModuleRenamed ref ident m m') (f f' : GoFile)
    (h : generateFile u fuel p m = some (.ok f)) (h' : generateFile u fuel p m' = some (.ok f')) (hn : NamesOk u m.moduleBody.assignmentList)
    (hn' : WellNamed u m'.moduleBody.assignmentList) (hs : ∀ n, exported u (goifyName u n) = true → exported u (goifyName u (ident n)) = true)
    (a : Str) (ha : a ∈ typeNames m.moduleBody.assignmentList) (b : Bytes) (v : GoVal) (rest : Bytes) (hr : Unmarshals f u (.ident (goifyName u a)) b v rest) :
    ∃ v', Unmarshals f' u (.ident (goifyName u (ref a))) b v' rest ∧ SameBut u ident v v' :=
  decodes_new (files_renamed hk hm h h' hn hn' hs) hr (.name _ _ ⟨a, ha, .inl ⟨rfl, rfl⟩⟩)

/-- C96: so the same octets are read into both, if names are changed back by another renaming. -/
theorem C96_both (u : Casing) (fuel : Nat) (p : GenParams) (ref ident ref' ident' : Str → Str) (hk : Keeps ref) (hk' : Keeps ref') (m m' : Module)
    (hm : ModuleRenamed ref ident m m') (hm' : ModuleRenamed ref' ident' m' m) (f f' : GoFile) (h : generateFile u fuel p m = some (.ok f))
    (h' : generateFile u fuel p m' = some (.ok f')) (hn : NamesOk u m.moduleBody.assignmentList) (hn' : NamesOk u m'.moduleBody.assignmentList)
    (hs : ∀ n, exported u (goifyName u n) = true → exported u (goifyName u (ident n)) = true)
    (hs' : ∀ n, exported u (goifyName u n) = true → exported u (goifyName u (ident' n)) = true)
    (a : Str) (ha : a ∈ typeNames m.moduleBody.assignmentList) (hb : ref' (ref a) = a) (b rest : Bytes) :
    (∃ v, Unmarshals f u (.ident (goifyName u a)) b v rest) ↔ ∃ v', Unmarshals f' u (.ident (goifyName u (ref a))) b v' rest := by
  constructor
  · rintro ⟨v, h1⟩
    obtain ⟨v', h2, -⟩ := C96_reads u fuel p ref ident hk m m' hm f f' h h' hn hn'.named hs a ha b v rest h1
    exact ⟨v', h2⟩
  · rintro ⟨v, h1⟩
    obtain ⟨v', h2, -⟩ := C96_reads u fuel p ref' ident' hk' m' m hm' f' f h' h hn' hn.named hs' (ref a) (typeNames_renamed hm.list ha) b v rest h1
    rw [hb] at h2
    exact ⟨v', h2⟩

/-- C96: and the same octets are written for values that differ in names. -/
theorem C96_writes (u : Casing) (ident : Str → Str) (hs : ∀ n, exported u (goifyName u n) = true → exported u (goifyName u (ident n)) = true) (v v' : GoVal)
    (h : SameBut u ident v v') (bs : Bytes) (hw : marshal u v = some bs) : marshal u v' = some bs :=
  makeField_new hs h hw

/-! ### A case -/

/-- The packet with `Octets` for `B`, and `version` for the component `v`. -/
def otherPacket : Module := renameModule (swapped (c! "B") (c! "Octets")) (swapped (c! "v") (c! "version")) (moduleOf TAGS_IMPLICIT packet)

/-- The file for it. -/
def otherFile : GoFile := ⟨c! "My_Mod", [
  .type [⟨c! "A", false, .struct [.mk (c! "Version") (.ident (c! "int64")) (some (c! "`asn1:\"default:1,optional,explicit,tag:0\"`")),
    .mk (c! "N") (.ident (c! "string")) (some (c! "`asn1:\"ia5\"`")), .mk (c! "S") (.array (.ident (c! "bool"))) (some (c! "`asn1:\"set\"`")),
    .mk (c! "B") (.ident (c! "Octets")) (some (c! "`asn1:\"optional\"`"))]⟩],
  .type [⟨c! "Octets", true, .array (.ident (c! "byte"))⟩]]⟩

theorem other_file : generateFile asciiCasing 20 int64Params otherPacket = some (.ok otherFile) := rfl

theorem other_names : WellNamed asciiCasing otherPacket.moduleBody.assignmentList where
  types := by decide
  values := by decide
  typeName := by
    intro r hr
    have : r ∈ [c! "A", c! "Octets"] := hr
    simp only [List.mem_cons, List.not_mem_nil, or_false] at this
    rcases this with rfl | rfl <;>
      exact upperName_of ⟨_, _, rfl, by decide⟩ (by decide) (by decide) (by decide) (by decide) (by decide)
  valueName := by
    intro r hr
    have : r ∈ ([] : List Str) := hr
    cases this
  numbers := by
    intro r t nums hm hc
    simp only [otherPacket, renameModule, moduleOf, packet, List.map_cons, List.map_nil, renameAssignment, renameTy, List.mem_cons, Assignment.type.injEq,
      List.not_mem_nil, or_false] at hm
    rcases hm with ⟨rfl, rfl⟩ | ⟨rfl, rfl⟩ <;> cases hc
  number := by
    intro r t nums hm hc
    simp only [otherPacket, renameModule, moduleOf, packet, List.map_cons, List.map_nil, renameAssignment, renameTy, List.mem_cons, Assignment.type.injEq,
      List.not_mem_nil, or_false] at hm
    rcases hm with ⟨rfl, rfl⟩ | ⟨rfl, rfl⟩ <;> cases hc

theorem other_shown (n : Str) (h : exported asciiCasing (goifyName asciiCasing n) = true) :
    exported asciiCasing (goifyName asciiCasing (swapped (c! "v") (c! "version") n)) = true := by
  unfold swapped
  split
  · decide
  · split
    · decide
    · exact h

/-- The octets of the packet are read into the types with the other names, and written again. -/
theorem C96_packet : ∃ v', Unmarshals otherFile asciiCasing (.ident (c! "A")) [48, 19, 160, 3, 2, 1, 5, 22, 1, 120, 49, 6, 1, 1, 0, 1, 1, 255, 4, 1, 7] v' [] ∧
    SameBut asciiCasing (swapped (c! "v") (c! "version")) packetRead v' ∧ marshal asciiCasing v' = marshal asciiCasing packetRead := by
  obtain ⟨v', h1, h2⟩ := C96_reads asciiCasing 20 int64Params (swapped (c! "B") (c! "Octets")) (swapped (c! "v") (c! "version"))
    ⟨swapped_injective _ _, by decide, by decide⟩ _ otherPacket (C88_rename _ _ _ (by simp [moduleOf, packet])) packetFile otherFile packet_file other_file packet_names other_names
    other_shown (c! "A") (by decide) _ _ _ (packet_reads [])
  have h3 : ∃ bs, marshal asciiCasing packetRead = some bs := ⟨_, rfl⟩
  obtain ⟨bs, h3⟩ := h3
  exact ⟨v', h1, h2, by rw [h3, C96_writes _ _ other_shown _ _ h2 _ h3]⟩

end Asn1go.Props
