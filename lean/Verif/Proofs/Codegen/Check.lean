import Verif.Proofs.Codegen.File
import Verif.Spec.GoCheck
import Mathlib.Data.List.Nodup

/-! Names, fields, recursion and initial values of generated files. -/

namespace Asn1go.CG

open Spec Relation

variable {u : Casing} {l : List MAssignment} {d : Int} {r : Str}

theorem declared_append : ∀ a b : List GoDecl, declared (a ++ b) = declared a ++ declared b
  | [], b => rfl
  | .type s :: a, b => by simp [declared, declared_append a b]
  | .var s :: a, b => by simp [declared, declared_append a b]
  | .imp s :: a, b => by simp [declared, declared_append a b]

theorem declared_imports (ps : List Str) : declared (ps.map GoDecl.imp) = [] := by
  induction ps with
  | nil => rfl
  | cons p ps ih => simpa [declared] using ih

theorem declared_type {specs : List GoTypeSpec} {s : GoTypeSpec} (hs : s ∈ specs) : ∀ {ds : List GoDecl}, GoDecl.type specs ∈ ds → s.name ∈ declared ds
  | .type sp :: ds, h => by
    rw [declared]
    rcases List.mem_cons.1 h with h | h
    · cases h
      exact List.mem_append_left _ (List.mem_map.2 ⟨s, hs, rfl⟩)
    · exact List.mem_append_right _ (declared_type hs h)
  | .var sp :: ds, h => by
    rw [declared]
    exact List.mem_append_right _ (declared_type hs (by simpa using h))
  | .imp _ :: ds, h => by
    rw [declared]
    exact declared_type hs (by simpa using h)

theorem declared_var {specs : List GoValueSpec} {s : GoValueSpec} (hs : s ∈ specs) : ∀ {ds : List GoDecl}, GoDecl.var specs ∈ ds → s.name ∈ declared ds
  | .var sp :: ds, h => by
    rw [declared]
    rcases List.mem_cons.1 h with h | h
    · cases h
      exact List.mem_append_left _ (List.mem_map.2 ⟨s, hs, rfl⟩)
    · exact List.mem_append_right _ (declared_var hs h)
  | .type sp :: ds, h => by
    rw [declared]
    exact List.mem_append_right _ (declared_var hs (by simpa using h))
  | .imp _ :: ds, h => by
    rw [declared]
    exact declared_var hs (by simpa using h)

theorem forall2_right {α β : Type} {p : α → β → Prop} {as : List α} {bs : List β} (h : List.Forall₂ p as bs) {b : β} (hb : b ∈ bs) :
    ∃ a ∈ as, p a b := by
  induction h with
  | nil => simp at hb
  | cons hab _ ih =>
    rcases List.mem_cons.1 hb with rfl | hb
    · exact ⟨_, by simp, hab⟩
    · obtain ⟨k, hk, h⟩ := ih hb
      exact ⟨k, by simp [hk], h⟩

/-! ### Identifiers in types -/

/-- A reference that is kept is assigned. -/
theorem resolves_assigned {a b : Str} {t : MTy} (h : Resolves l a b t) (hn : ¬ TimeName b) : ∃ t', Assigned l a t' := by
  cases h with
  | assigned _ _ hl ht =>
    cases hl with
    | «alias» _ c _ _ ha _ => exact ⟨_, ha.choose_spec.1⟩
    | assigned _ _ _ ha _ _ => exact ⟨_, ha⟩
    | unassigned _ _ => exact absurd rfl ht
  | generalizedTime => exact absurd (.inl rfl) hn

/-- A reference that is kept is not taken for a time. -/
theorem not_timeAlias {a b : Str} {t : MTy} (h : Resolves l a b t) (hn : ¬ TimeName b) : ¬ TimeAlias l a := by
  rintro ⟨b', t', h', ht⟩
  obtain ⟨rfl, rfl⟩ := resolves_unique h h'
  exact hn ht

/-- An identifier of a translated type: predeclared, from a package, or the name of an assigned type that is mentioned. -/
def TypeIdent (u : Casing) (l : List MAssignment) (t : MTy) (x : Str) : Prop :=
  x ∈ predeclared ∨ '.' ∈ x ∨ ∃ a t', Assigned l a t' ∧ Inside l t (.ref a) ∧ x = goifyName u a ∧ ¬ TimeAlias l a

theorem TypeIdent.mono {t t' : MTy} {x : Str} (h : TypeIdent u l t x) (hi : ∀ a, Inside l t (.ref a) → Inside l t' (.ref a)) : TypeIdent u l t' x := by
  rcases h with h | h | ⟨a, s, h1, h2, h3⟩
  · exact .inl h
  · exact .inr (.inl h)
  · exact .inr (.inr ⟨a, s, h1, hi a h2, h3⟩)

mutual

theorem typeIdents {t : MTy} {e : GoExpr} : GoTypeOf u l d r t e → ∀ x ∈ exprIdents e, TypeIdent u l t x
  | .boolean, x, hx => .inl (by simp [exprIdents] at hx; subst hx; decide)
  | .int64 _ _, x, hx => .inl (by simp [exprIdents] at hx; subst hx; decide)
  | .bigInt _ _, x, hx => .inr (.inl (by simp [exprIdents] at hx; subst hx; decide))
  | .real, x, hx => .inl (by simp [exprIdents] at hx; subst hx; decide)
  | .characterString, x, hx => .inl (by simp [exprIdents] at hx; subst hx; decide)
  | .restrictedString _, x, hx => .inl (by simp [exprIdents] at hx; subst hx; decide)
  | .octetString, x, hx => .inl (by simp [exprIdents] at hx; subst hx; decide)
  | .bitString _, x, hx => .inr (.inl (by simp [exprIdents] at hx; subst hx; decide))
  | .objectIdentifier, x, hx => .inr (.inl (by simp [exprIdents] at hx; subst hx; decide))
  | .enumerated _ _, x, hx => .inr (.inl (by simp [exprIdents] at hx; subst hx; decide))
  | .any _, x, hx => by simp [exprIdents] at hx
  | .sequence a b fs hf, x, hx => by
    rw [exprIdents] at hx
    obtain ⟨m, hm, h⟩ := fieldIdents_of hf x hx
    exact h.mono fun c hc => .sequence _ _ m _ hm hc
  | .set a b fs hf, x, hx => by
    rw [exprIdents] at hx
    obtain ⟨m, hm, h⟩ := fieldIdents_of hf x hx
    exact h.mono fun c hc => .set _ _ m _ hm hc
  | .sequenceOf t e h, x, hx => by
    rw [exprIdents] at hx
    exact (typeIdents h x hx).mono fun c hc => .sequenceOf _ _ hc
  | .setOf t e h, x, hx => by
    rw [exprIdents] at hx
    exact (typeIdents h x hx).mono fun c hc => .setOf _ _ hc
  | .tagged g t k b e h, x, hx => (typeIdents h x hx).mono fun c hc => .tagged _ _ _ _ _ hc
  | .constrained t c e h, x, hx => (typeIdents h x hx).mono fun c hc => .constrained _ _ _ hc
  | .time _ _ _ _ _, x, hx => .inr (.inl (by simp [exprIdents] at hx; subst hx; decide))
  | .bits _ _ _ _ _ _ _, x, hx => .inr (.inl (by simp [exprIdents] at hx; subst hx; decide))
  | .ref a b t h1 h2 _, x, hx => by
    simp only [exprIdents, List.mem_singleton] at hx
    obtain ⟨t', ht⟩ := resolves_assigned h1 h2
    exact .inr (.inr ⟨a, t', ht, .here _, hx, not_timeAlias h1 h2⟩)
  | .rawChoice _ _ _, x, hx => .inr (.inl (by simp [exprIdents] at hx; subst hx; decide))
  | .onlyChoice n t ext e h1 h2, x, hx => (typeIdents h2 x hx).mono fun c hc => .choice _ _ _ _ h1 hc
  | .choice _ _ _ _, x, hx => by simp [exprIdents] at hx

theorem fieldIdents_of {xs : List Member} {fs : List GoField} : FieldsOf u l d r xs fs → ∀ x ∈ fieldIdents fs, ∃ m ∈ xs, TypeIdent u l m.type x
  | .nil, x, hx => by simp [fieldIdents] at hx
  | .cons m ms e tag fs h1 _ h3, x, hx => by
    rw [fieldIdents, List.mem_append] at hx
    rcases hx with hx | hx
    · exact ⟨m, by simp, typeIdents h1 x hx⟩
    · obtain ⟨y, hy, h⟩ := fieldIdents_of h3 x hx
      exact ⟨y, by simp [hy], h⟩

end

/-! ### Declared names -/

/-- The name of a type is declared. -/
theorem type_declared {as : List MAssignment} {ds : List GoDecl} (h : DeclsFor u l d r as ds) {n : Str} {t : MTy} (hm : .type n t ∈ as) :
    goifyName u n ∈ declared ds := by
  obtain ⟨x, v, hx, -, hd, -⟩ := decls_type h hm
  cases hd with
  | struct fs _ _ => exact declared_type (s := ⟨_, _, _⟩) (List.mem_singleton.2 rfl) hx
  | «alias» e _ _ _ => exact declared_type (s := ⟨_, _, _⟩) (List.mem_singleton.2 rfl) hx
  | set e _ _ => exact declared_type (s := ⟨_, _, _⟩) (List.mem_cons_of_mem _ (List.mem_singleton.2 rfl)) hx

/-- The name of a literal value is declared. -/
theorem value_declared {as : List MAssignment} {ds : List GoDecl} (h : DeclsFor u l d r as ds) {n : Str} {t : MTy} {v : Value DefinedValue}
    (hl : Literal v) (hm : .value n t v ∈ as) : c! "Val" ++ goifyName u n ∈ declared ds := by
  obtain ⟨ty, e, hx, -⟩ := decls_value h hl hm
  exact declared_var (s := ⟨_, _, _⟩) (List.mem_singleton.2 rfl) hx

/-- The reference to a value in a named number that has no variable. -/
def Dangling (u : Casing) (l as : List MAssignment) (x : Str) : Prop :=
  ∃ n t nums k dv, .type n t ∈ as ∧ Core t (.integer nums) ∧ k ∈ nums ∧ NamedNumber.value k = .defined dv ∧
    x = c! "Val" ++ goifyName u dv.valueName ∧ ∀ t' v, Literal v → Assignment.value dv.valueName t' v ∉ l

theorem intExpr_idents {n : Int} {e : GoExpr} (h : IntExpr r n e) : ∀ x ∈ exprIdents e, '.' ∈ x := by
  obtain ⟨s, -, -, rfl⟩ := h
  intro x hx
  split at hx
  · simp [exprIdents] at hx
    subst hx
    decide
  · simp [exprIdents] at hx

/-- Where the identifiers used in declarations come from. -/
theorem used_declared {dl : List GoDecl} (hdl : DeclsFor u l d r l dl) : ∀ {as : List MAssignment} {ds : List GoDecl}, DeclsFor u l d r as ds →
    ∀ dc ∈ ds, ∀ x ∈ declIdents dc, x ∈ predeclared ∨ '.' ∈ x ∨ x ∈ declared dl ∨ x ∈ declared ds ∨ Dangling u l as x := by
  have hty : ∀ {t : MTy} {x : Str}, TypeIdent u l t x → x ∈ predeclared ∨ '.' ∈ x ∨ x ∈ declared dl := by
    rintro t x (h | h | ⟨a, t', ha, -, rfl, -⟩)
    · exact .inl h
    · exact .inr (.inl h)
    · exact .inr (.inr (type_declared hdl (List.mem_of_find?_eq_some ha)))
  have up : ∀ {x : Str} {ds : List GoDecl} {as : List MAssignment}, (x ∈ predeclared ∨ '.' ∈ x ∨ x ∈ declared dl) →
      (x ∈ predeclared ∨ '.' ∈ x ∨ x ∈ declared dl ∨ x ∈ declared ds ∨ Dangling u l as x) := by
    rintro x ds as (h | h | h)
    · exact .inl h
    · exact .inr (.inl h)
    · exact .inr (.inr (.inl h))
  have weaken : ∀ {x : Str} {ds ds' : List GoDecl} {as as' : List MAssignment}, declared ds ⊆ declared ds' → as ⊆ as' →
      (x ∈ predeclared ∨ '.' ∈ x ∨ x ∈ declared dl ∨ x ∈ declared ds ∨ Dangling u l as x) →
      (x ∈ predeclared ∨ '.' ∈ x ∨ x ∈ declared dl ∨ x ∈ declared ds' ∨ Dangling u l as' x) := by
    rintro x ds ds' as as' h1 h2 (h | h | h | h | ⟨n, t, nums, k, dv, ha, hb⟩)
    · exact .inl h
    · exact .inr (.inl h)
    · exact .inr (.inr (.inl h))
    · exact .inr (.inr (.inr (.inl (h1 h))))
    · exact .inr (.inr (.inr (.inr ⟨n, t, nums, k, dv, h2 ha, hb⟩)))
  intro as ds h
  induction h with
  | done => intro dc hdc; simp at hdc
  | type n t as dc v ds h1 h2 h3 ih =>
    intro dc' hdc x hx
    have hall : DeclsFor u l d r (.type n t :: as) (dc :: (v ++ ds)) := .type n t as dc v ds h1 h2 h3
    have hself := type_declared hall (n := n) (t := t) (by simp)
    rcases List.mem_cons.1 hdc with rfl | hdc
    · cases h1 with
      | struct fs _ he => exact up (hty (typeIdents he x (by simpa [declIdents] using hx)))
      | «alias» e _ he _ => exact up (hty (typeIdents he x (by simpa [declIdents] using hx)))
      | set e _ he =>
        simp only [declIdents, List.flatMap_cons, List.flatMap_nil, List.append_nil, List.mem_append] at hx
        rcases hx with hx | hx
        · exact up (hty (typeIdents he x hx))
        · simp only [exprIdents, List.mem_singleton] at hx
          subst hx
          exact .inr (.inr (.inr (.inl (by simp [declared]))))
    · rcases List.mem_append.1 hdc with hdc | hdc
      · cases h2 with
        | none _ => simp at hdc
        | vars nums specs hc hn hf =>
          simp only [List.mem_singleton] at hdc
          subst hdc
          simp only [declIdents, List.mem_flatMap, List.mem_append] at hx
          obtain ⟨s, hs, hx⟩ := hx
          obtain ⟨k, hk, hks⟩ := forall2_right hf hs
          rcases hx with hx | hx
          · rw [hks.type] at hx
            simp only [exprIdents, List.mem_singleton] at hx
            subst hx
            exact .inr (.inr (.inr (.inl hself)))
          · match hv : k.value with
            | .number i => exact .inr (.inl (intExpr_idents (hks.number i hv) x hx))
            | .defined dv =>
              rw [hks.defined dv hv] at hx
              simp only [exprIdents, List.mem_singleton] at hx
              subst hx
              by_cases hl : ∃ t' v, Literal v ∧ Assignment.value dv.valueName t' v ∈ l
              · obtain ⟨t', v, hlit, hm⟩ := hl
                exact .inr (.inr (.inl (value_declared hdl hlit hm)))
              · exact .inr (.inr (.inr (.inr ⟨n, t, nums, k, dv, by simp, hc, hk, hv, rfl, fun t' v h1 h2 => hl ⟨t', v, h1, h2⟩⟩)))
            | .nil =>
              rw [hks.none hv] at hx
              simp [exprIdents] at hx
      · exact weaken (fun y hy => by rw [show dc :: (v ++ ds) = [dc] ++ (v ++ ds) from rfl, declared_append, declared_append]; simp [hy]) (by simp) (ih dc' hdc x hx)
  | value n t v as ty e ds h1 h2 h3 ih =>
    intro dc' hdc x hx
    rcases List.mem_cons.1 hdc with rfl | hdc
    · simp only [declIdents, List.flatMap_cons, List.flatMap_nil, List.append_nil, List.mem_append] at hx
      rcases hx with hx | hx
      · exact up (hty (typeIdents h2 x hx))
      · cases h1 with
        | number n e h => exact .inr (.inl (intExpr_idents h x hx))
        | boolean b => simp [exprIdents] at hx
        | real y => simp [exprIdents] at hx
    · exact weaken (fun y hy => by simp [declared, hy]) (by simp) (ih dc' hdc x hx)
  | skip n t v as ds _ _ ih => exact fun dc' hdc x hx => weaken (fun _ h => h) (by simp) (ih dc' hdc x hx)
  | nil as ds _ ih => exact fun dc' hdc x hx => weaken (fun _ h => h) (by simp) (ih dc' hdc x hx)

/-! ### Different names -/

theorem goify_upper {a : Str} (h : UpperName u a) : goifyName u a = a.map under := by
  obtain ⟨c, cs, rfl, hc⟩ := h.word.letter
  rw [goify_word h.word, toTitle_upper (h.ascii c (by simp)) (by simpa using h.upper), List.map_cons]
  congr 1
  unfold under
  rw [if_neg]
  rintro rfl
  rw [u.letter_ascii '-' (by decide)] at hc
  revert hc
  decide

theorem word_under {a : Str} (h : Word u.toUnicode a) : ∀ c ∈ a, c ≠ '_' := fun c hc => under_word (h.chars c hc)

theorem goify_upper_inj {a b : Str} (ha : UpperName u a) (hb : UpperName u b) (h : goifyName u a = goifyName u b) : a = b := by
  rw [goify_upper ha, goify_upper hb] at h
  exact map_under_inj (word_under ha.word) (word_under hb.word) h

theorem goify_lower_inj {a b : Str} (ha : LowerName u a) (hb : LowerName u b) (h : goifyName u a = goifyName u b) : a = b := by
  obtain ⟨c, cs, rfl, hc⟩ := ha.word.letter
  obtain ⟨e, es, rfl, he⟩ := hb.word.letter
  rw [goify_word ha.word, goify_word hb.word] at h
  simp only [List.cons.injEq] at h
  obtain ⟨h1, h2, h3⟩ := toTitle_lower (ha.ascii c (by simp)) hc (by simpa using ha.lower)
  obtain ⟨h4, h5, h6⟩ := toTitle_lower (hb.ascii e (by simp)) he (by simpa using hb.lower)
  have := congrArg Char.toNat h.1
  rw [h3, h6] at this
  have hce : c = e := char_ext (by omega)
  rw [hce, map_under_inj (fun x hx => word_under ha.word x (by simp [hx])) (fun x hx => word_under hb.word x (by simp [hx])) h.2]

theorem under_val {c : Char} {x : Char} (hx : x = 'V' ∨ x = 'a' ∨ x = 'l') (h : under c = x) : c = x := by
  unfold under at h
  split at h
  · subst h
    exact absurd hx (by decide)
  · exact h

theorem val_under {a : Str} (h : c! "Val" <:+: a.map under) : c! "Val" <:+: a := by
  obtain ⟨s, t, h⟩ := h
  obtain ⟨ab, t', h1, h2, h3⟩ := List.map_eq_append_iff.1 h.symm
  obtain ⟨s', v, h4, h5, h6⟩ := List.map_eq_append_iff.1 h2
  have hlen := congrArg List.length h6
  match v, h6, hlen with
  | [x, y, z], h6, _ =>
    simp only [List.map_cons, List.map_nil, List.cons.injEq, and_true] at h6
    refine ⟨s', t', ?_⟩
    rw [h1, h4, under_val (.inl rfl) h6.1, under_val (.inr (.inl rfl)) h6.2.1, under_val (.inr (.inr rfl)) h6.2.2]
  | [], _, h => simp at h
  | [_], _, h => simp at h
  | [_, _], _, h => simp at h
  | _ :: _ :: _ :: _ :: _, _, h => simp at h

theorem val_split_aux {x y z w c : Str} (hy : y = x ++ c) (h : c! "Val" ++ z = c ++ (c! "Val" ++ w)) (hn : ¬ c! "Val" <:+: y) : x = y ∧ z = w := by
  match c, h with
  | [], h => exact ⟨by simp [hy], by simpa using h⟩
  | [a], h => simp at h
  | [a, b], h => simp at h
  | a :: b :: e :: c, h =>
    simp only [List.cons_append, List.nil_append, List.cons.injEq] at h
    obtain ⟨rfl, rfl, rfl, h⟩ := h
    exact absurd ⟨x, c, by rw [hy]; simp⟩ hn

theorem val_split {x y z w : Str} (h : x ++ (c! "Val" ++ z) = y ++ (c! "Val" ++ w)) (hx : ¬ c! "Val" <:+: x) (hy : ¬ c! "Val" <:+: y) : x = y ∧ z = w := by
  rcases List.append_eq_append_iff.1 h with ⟨c, h1, h2⟩ | ⟨c, h1, h2⟩
  · exact val_split_aux h1 h2 hy
  · obtain ⟨h3, h4⟩ := val_split_aux h1 h2 hx
    exact ⟨h3.symm, h4.symm⟩

theorem set_val {x y w : Str} (h : x ++ c! "SET" = y ++ (c! "Val" ++ w)) : c! "Val" <:+: x := by
  rcases List.append_eq_append_iff.1 h with ⟨c, h1, h2⟩ | ⟨c, h1, h2⟩
  · have : 'V' ∈ c! "SET" := by rw [h2]; simp
    exact absurd this (by decide)
  · match c, h2 with
    | [], h => simp at h
    | [a], h => simp at h
    | [a, b], h => simp at h
    | a :: b :: e :: c, h =>
      simp only [List.cons_append, List.nil_append, List.cons.injEq] at h
      obtain ⟨rfl, rfl, rfl, h⟩ := h
      exact ⟨y, c, by rw [h1]; simp⟩

theorem mem_typeNames {n : Str} {t : MTy} {as : List MAssignment} (h : .type n t ∈ as) : n ∈ typeNames as :=
  List.mem_filterMap.2 ⟨_, h, rfl⟩

theorem mem_valueNames {n : Str} {t : MTy} {v : Value DefinedValue} {as : List MAssignment} (h : .value n t v ∈ as) : n ∈ valueNames as :=
  List.mem_filterMap.2 ⟨_, h, rfl⟩

theorem of_typeNames {n : Str} {as : List MAssignment} (h : n ∈ typeNames as) : ∃ t, .type n t ∈ as := by
  obtain ⟨a, ha, h⟩ := List.mem_filterMap.1 h
  match a, h with
  | .type r t, h =>
    simp only [Option.some.injEq] at h
    subst h
    exact ⟨t, ha⟩

/-- Different origins have different names. -/
theorem origin_inj (hw : WellNamed u l) (hs : NoSetClash l) (hv : NoValName l) {o o' : Origin} (ho : o.Ok l l) (ho' : o'.Ok l l)
    (h : o.name u = o'.name u) : o = o' := by
  have up : ∀ {a : Str}, a ∈ typeNames l → ¬ c! "Val" <:+: goifyName u a := by
    intro a ha hi
    rw [goify_upper (hw.typeName a ha)] at hi
    exact hv a ha (val_under hi)
  have nonempty : ∀ {a : Str}, a ∈ typeNames l → goifyName u a ≠ [] := by
    intro a ha
    rw [goify_upper (hw.typeName a ha)]
    obtain ⟨c, cs, rfl, _⟩ := (hw.typeName a ha).word.letter
    simp
  have hset : ∀ {a b : Str}, a ∈ typeNames l → (∃ t, .type b t ∈ l ∧ MarksSet l t) → goifyName u a ≠ goifyName u b ++ c! "SET" := by
    intro a b ha ⟨t, hb, hm⟩ he
    rw [goify_upper (hw.typeName a ha), goify_upper (hw.typeName b (mem_typeNames hb)), show c! "SET" = (c! "SET").map under from rfl,
      ← List.map_append] at he
    have := map_under_inj (word_under (hw.typeName a ha).word) (fun c hc => by
      rcases List.mem_append.1 hc with hc | hc
      · exact word_under (hw.typeName b (mem_typeNames hb)).word c hc
      · exact (by decide : ∀ c ∈ c! "SET", c ≠ '_') c hc) he
    subst this
    exact hs b t hb hm ha
  have hsv : ∀ {b y w : Str}, (∃ t, .type b t ∈ l ∧ MarksSet l t) → goifyName u b ++ c! "SET" ≠ y ++ (c! "Val" ++ w) := by
    intro b y w ⟨t, hb, _⟩ he
    exact up (mem_typeNames hb) (set_val he)
  match o, o', ho, ho', h with
  | .ty a, .ty b, ha, hb, h => rw [goify_upper_inj (hw.typeName a ha) (hw.typeName b hb) h]
  | .ty a, .set b, ha, hb, h => exact absurd h (hset ha hb)
  | .set b, .ty a, hb, ha, h => exact absurd h.symm (hset ha hb)
  | .ty a, .num b n, ha, hb, h => exact absurd ⟨_, _, by rw [List.append_assoc]; exact h.symm⟩ (up ha)
  | .num b n, .ty a, hb, ha, h => exact absurd ⟨_, _, by rw [List.append_assoc]; exact h⟩ (up ha)
  | .ty a, .val b, ha, hb, h => exact absurd ⟨[], _, h.symm⟩ (up ha)
  | .val b, .ty a, hb, ha, h => exact absurd ⟨[], _, h⟩ (up ha)
  | .set a, .set b, ⟨t, ha, _⟩, ⟨t', hb, _⟩, h =>
    rw [goify_upper_inj (hw.typeName a (mem_typeNames ha)) (hw.typeName b (mem_typeNames hb)) (List.append_cancel_right h)]
  | .set a, .num b n, ha, hb, h => exact absurd h (hsv ha)
  | .num b n, .set a, hb, ha, h => exact absurd h.symm (hsv ha)
  | .set a, .val b, ha, hb, h => exact absurd h (hsv (y := []) ha)
  | .val b, .set a, hb, ha, h => exact absurd h.symm (hsv (y := []) ha)
  | .num a n, .num b k, ⟨t, nums, ha, hc, hn⟩, ⟨t', nums', hb, hc', hk⟩, h =>
    obtain ⟨h1, h2⟩ := val_split h (up (mem_typeNames ha)) (up (mem_typeNames hb))
    obtain ⟨x, hx, rfl⟩ := List.mem_map.1 hn
    obtain ⟨y, hy, rfl⟩ := List.mem_map.1 hk
    rw [goify_upper_inj (hw.typeName a (mem_typeNames ha)) (hw.typeName b (mem_typeNames hb)) h1,
      goify_lower_inj (hw.number a t nums ha hc x hx) (hw.number b t' nums' hb hc' y hy) h2]
  | .num a n, .val b, ⟨t, nums, ha, _⟩, hb, h =>
    exact absurd (val_split (y := []) h (up (mem_typeNames ha)) (by decide)).1 (nonempty (mem_typeNames ha))
  | .val b, .num a n, hb, ⟨t, nums, ha, _⟩, h =>
    exact absurd (val_split (y := []) h.symm (up (mem_typeNames ha)) (by decide)).1 (nonempty (mem_typeNames ha))
  | .val a, .val b, ⟨_, _, ha, _⟩, ⟨_, _, hb, _⟩, h =>
    rw [goify_lower_inj (hw.valueName a (mem_valueNames ha)) (hw.valueName b (mem_valueNames hb)) (List.append_cancel_left h)]

theorem _root_.Asn1go.Spec.Origin.Ok.mono {as as' : List MAssignment} (h : as ⊆ as') : ∀ {o : Origin}, o.Ok l as → o.Ok l as'
  | .ty r, ho => by obtain ⟨t, ht⟩ := of_typeNames ho; exact mem_typeNames (h ht)
  | .set r, ⟨t, ht, hm⟩ => ⟨t, h ht, hm⟩
  | .num r n, ⟨t, nums, ht, hm⟩ => ⟨t, nums, h ht, hm⟩
  | .val r, ⟨t, v, ht, hm⟩ => ⟨t, v, h ht, hm⟩

theorem numberVars_names {name : Str} {nums : List NamedNumber} {specs : List GoValueSpec} (h : List.Forall₂ (NumberVar u r name) nums specs) :
    specs.map GoValueSpec.name = nums.map fun n => name ++ (c! "Val" ++ goifyName u n.name) := by
  induction h with
  | nil => rfl
  | cons hab _ ih => rw [List.map_cons, List.map_cons, ih, hab.named, List.append_assoc]

theorem _root_.Asn1go.Spec.LiteralExpr.literal {v : Value DefinedValue} {e : GoExpr} (h : LiteralExpr r v e) : Literal v := by
  cases h <;> trivial

/-- What the declared names are declared for: every origin once. -/
theorem origins {as : List MAssignment} {ds : List GoDecl} (h : DeclsFor u l d r as ds) (ht : (typeNames as).Nodup) (hv : (valueNames as).Nodup)
    (hn : ∀ r t nums, .type r t ∈ as → Core t (.integer nums) → (nums.map NamedNumber.name).Nodup) :
    ∃ os : List Origin, declared ds = os.map (Origin.name u) ∧ os.Nodup ∧ ∀ o, o ∈ os ↔ o.Ok l as := by
  induction h with
  | done =>
    refine ⟨[], rfl, .nil, fun o => ⟨by simp, fun ho => ?_⟩⟩
    match o, ho with
    | .ty _, ho => simp [Origin.Ok, typeNames] at ho
    | .set _, ⟨_, ho, _⟩ => simp at ho
    | .num _ _, ⟨_, _, ho, _⟩ => simp at ho
    | .val _, ⟨_, _, ho, _⟩ => simp at ho
  | type n t as dc v ds h1 h2 h3 ih =>
    have ht' : n ∉ typeNames as ∧ (typeNames as).Nodup := List.nodup_cons.1 ht
    obtain ⟨os, e1, e2, e3'⟩ := ih ht'.2 hv (fun r t nums hm => hn r t nums (by simp [hm]))
    have e3 := fun o => (e3' o).1
    obtain ⟨o1, g1, g2, g3, g4, g5, g6⟩ : ∃ o1 : List Origin, declared [dc] = o1.map (Origin.name u) ∧ o1.Nodup ∧ (∀ o ∈ o1, o.Ok l (.type n t :: as)) ∧
        (∀ o ∈ o1, o = .ty n ∨ o = .set n) ∧ .ty n ∈ o1 ∧ (MarksSet l t → .set n ∈ o1) := by
      cases h1 with
      | struct fs hm _ => exact ⟨[.ty n], rfl, by simp, by simp [Origin.Ok, typeNames], by simp, by simp, fun h => absurd h hm⟩
      | «alias» e hm _ _ => exact ⟨[.ty n], rfl, by simp, by simp [Origin.Ok, typeNames], by simp, by simp, fun h => absurd h hm⟩
      | set e hm _ =>
        refine ⟨[.set n, .ty n], rfl, by simp, ?_, by simp, by simp, by simp⟩
        intro o ho
        simp only [List.mem_cons, List.not_mem_nil, or_false] at ho
        rcases ho with rfl | rfl
        · exact ⟨t, by simp, hm⟩
        · simp [Origin.Ok, typeNames]
    obtain ⟨o2, k1, k2, k3, k4, k5⟩ : ∃ o2 : List Origin, declared v = o2.map (Origin.name u) ∧ o2.Nodup ∧ (∀ o ∈ o2, o.Ok l (.type n t :: as)) ∧
        (∀ o ∈ o2, ∃ k, o = .num n k) ∧ ∀ nums k, Core t (.integer nums) → k ∈ nums.map NamedNumber.name → .num n k ∈ o2 := by
      cases h2 with
      | none hz => exact ⟨[], rfl, .nil, by simp, by simp, fun nums k hc hk => by rw [hz nums hc] at hk; simp at hk⟩
      | vars nums specs hc _ hf =>
        refine ⟨nums.map fun k => .num n k.name, ?_, ?_, ?_, ?_, ?_⟩
        · rw [declared, numberVars_names hf]
          simp [declared, Origin.name, Function.comp_def]
        · have := hn n t nums (by simp) hc
          rw [show (nums.map fun k => Origin.num n k.name) = (nums.map NamedNumber.name).map (Origin.num n) by simp [Function.comp_def]]
          exact List.Nodup.map (fun a b h => by cases h; rfl) this
        · intro o ho
          obtain ⟨k, hk, rfl⟩ := List.mem_map.1 ho
          exact ⟨t, nums, by simp, hc, List.mem_map.2 ⟨k, hk, rfl⟩⟩
        · intro o ho
          obtain ⟨k, hk, rfl⟩ := List.mem_map.1 ho
          exact ⟨_, rfl⟩
        · intro nums' k hc' hk
          rw [core_iff] at hc hc'
          rw [hc] at hc'
          cases hc'
          obtain ⟨x, hx, rfl⟩ := List.mem_map.1 hk
          exact List.mem_map.2 ⟨x, hx, rfl⟩
    refine ⟨o1 ++ (o2 ++ os), ?_, ?_, fun o => ⟨?_, fun ho => ?_⟩⟩
    · rw [show dc :: (v ++ ds) = [dc] ++ (v ++ ds) from rfl, declared_append, declared_append, g1, k1, e1, List.map_append, List.map_append]
    · have fresh : ∀ o ∈ os, o ≠ .ty n ∧ o ≠ .set n ∧ ∀ k, o ≠ .num n k := by
        intro o ho
        have := e3 o ho
        refine ⟨?_, ?_, ?_⟩
        · rintro rfl
          exact ht'.1 this
        · rintro rfl
          obtain ⟨t', h, _⟩ := this
          exact ht'.1 (mem_typeNames h)
        · rintro k rfl
          obtain ⟨t', nums, h, _⟩ := this
          exact ht'.1 (mem_typeNames h)
      refine List.nodup_append.2 ⟨g2, List.nodup_append.2 ⟨k2, e2, ?_⟩, ?_⟩
      · rintro o ho o' ho' rfl
        obtain ⟨k, rfl⟩ := k4 o ho
        exact (fresh _ ho').2.2 k rfl
      · rintro o ho o' ho' rfl
        rcases List.mem_append.1 ho' with ho' | ho'
        · obtain ⟨k, rfl⟩ := k4 o ho'
          rcases g4 _ ho with h | h <;> cases h
        · rcases g4 _ ho with rfl | rfl
          · exact (fresh _ ho').1 rfl
          · exact (fresh _ ho').2.1 rfl
    · intro ho
      rcases List.mem_append.1 ho with ho | ho
      · exact g3 o ho
      · rcases List.mem_append.1 ho with ho | ho
        · exact k3 o ho
        · exact (e3 o ho).mono (by simp)
    · have old : o.Ok l as → o ∈ o1 ++ (o2 ++ os) := fun h => by simp [(e3' o).2 h]
      match o, ho with
      | .ty r, ho =>
        obtain ⟨t', ho⟩ := of_typeNames ho
        rcases List.mem_cons.1 ho with ho | ho
        · cases ho
          simp [g5]
        · exact old (mem_typeNames ho)
      | .set r, ⟨t', ho, hm⟩ =>
        rcases List.mem_cons.1 ho with ho | ho
        · cases ho
          simp [g6 hm]
        · exact old ⟨t', ho, hm⟩
      | .num r k, ⟨t', nums, ho, hc, hk⟩ =>
        rcases List.mem_cons.1 ho with ho | ho
        · cases ho
          have := k5 nums k hc hk
          simp [this]
        · exact old ⟨t', nums, ho, hc, hk⟩
      | .val r, ⟨t', v', ho, hl⟩ => exact old ⟨t', v', by simpa using ho, hl⟩
  | value n t v as ty e ds h1 h2 h3 ih =>
    have hv' : n ∉ valueNames as ∧ (valueNames as).Nodup := List.nodup_cons.1 hv
    obtain ⟨os, e1, e2, e3'⟩ := ih ht hv'.2 (fun r t nums hm => hn r t nums (by simp [hm]))
    have e3 := fun o => (e3' o).1
    refine ⟨.val n :: os, by simp [declared, e1, Origin.name], List.nodup_cons.2 ⟨fun ho => ?_, e2⟩, fun o => ⟨fun ho => ?_, fun ho => ?_⟩⟩
    · obtain ⟨t', v', hm, _⟩ := e3 _ ho
      exact hv'.1 (mem_valueNames hm)
    · rcases List.mem_cons.1 ho with rfl | ho
      · exact ⟨t, v, by simp, h1.literal⟩
      · exact (e3 o ho).mono (by simp)
    · have old : o.Ok l as → o ∈ .val n :: os := fun h => by simp [(e3' o).2 h]
      match o, ho with
      | .ty r, ho =>
        obtain ⟨t', ho⟩ := of_typeNames ho
        exact old (mem_typeNames (by simpa using ho))
      | .set r, ⟨t', ho, hm⟩ => exact old ⟨t', by simpa using ho, hm⟩
      | .num r k, ⟨t', nums, ho, hc, hk⟩ => exact old ⟨t', nums, by simpa using ho, hc, hk⟩
      | .val r, ⟨t', v', ho, hl⟩ =>
        rcases List.mem_cons.1 ho with ho | ho
        · cases ho
          simp
        · exact old ⟨t', v', ho, hl⟩
  | skip n t v as ds hnl _ ih =>
    obtain ⟨os, e1, e2, e3⟩ := ih ht (List.nodup_cons.1 hv).2 (fun r t nums hm => hn r t nums (by simp [hm]))
    refine ⟨os, e1, e2, fun o => ⟨fun ho => ((e3 o).1 ho).mono (by simp), fun ho => (e3 o).2 ?_⟩⟩
    match o, ho with
    | .ty r, ho =>
      obtain ⟨t', ho⟩ := of_typeNames ho
      exact mem_typeNames (by simpa using ho)
    | .set r, ⟨t', ho, hm⟩ => exact ⟨t', by simpa using ho, hm⟩
    | .num r k, ⟨t', nums, ho, hc, hk⟩ => exact ⟨t', nums, by simpa using ho, hc, hk⟩
    | .val r, ⟨t', v', ho, hl⟩ =>
      rcases List.mem_cons.1 ho with ho | ho
      · cases ho
        exact absurd hl hnl
      · exact ⟨t', v', ho, hl⟩
  | nil as ds _ ih =>
    obtain ⟨os, e1, e2, e3⟩ := ih ht hv (fun r t nums hm => hn r t nums (by simp [hm]))
    refine ⟨os, e1, e2, fun o => ⟨fun ho => ((e3 o).1 ho).mono (by simp), fun ho => (e3 o).2 ?_⟩⟩
    match o, ho with
    | .ty r, ho =>
      obtain ⟨t', ho⟩ := of_typeNames ho
      exact mem_typeNames (by simpa using ho)
    | .set r, ⟨t', ho, hm⟩ => exact ⟨t', by simpa using ho, hm⟩
    | .num r k, ⟨t', nums, ho, hc, hk⟩ => exact ⟨t', nums, by simpa using ho, hc, hk⟩
    | .val r, ⟨t', v', ho, hl⟩ => exact ⟨t', v', by simpa using ho, hl⟩

/-- No name is declared twice. -/
theorem declared_nodup {ds : List GoDecl} (h : DeclsFor u l d r l ds) (hw : WellNamed u l) (hs : NoSetClash l) (hv : NoValName l) :
    (declared ds).Nodup := by
  obtain ⟨os, e1, e2, e3⟩ := origins h hw.types hw.values hw.numbers
  rw [e1]
  exact List.Nodup.map_on (fun x hx y hy hxy => origin_inj hw hs hv ((e3 x).1 hx) ((e3 y).1 hy) hxy) e2

/-- No name is declared twice exactly if no two things get the same name. -/
theorem declared_nodup_iff {ds : List GoDecl} (h : DeclsFor u l d r l ds) (hw : WellNamed u l) : (declared ds).Nodup ↔ NamesApart u l := by
  obtain ⟨os, e1, e2, e3⟩ := origins h hw.types hw.values hw.numbers
  rw [e1]
  refine ⟨fun hd o o' ho ho' hn => ?_, fun hd => List.Nodup.map_on (fun x hx y hy hxy => hd x y ((e3 x).1 hx) ((e3 y).1 hy) hxy) e2⟩
  exact List.inj_on_of_nodup_map hd ((e3 o).2 ho) ((e3 o').2 ho') hn

end Asn1go.CG
