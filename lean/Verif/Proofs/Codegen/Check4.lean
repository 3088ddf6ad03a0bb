import Verif.Proofs.Codegen.Check3

/-! Which identifiers of packages a generated file uses. -/

namespace Asn1go.CG

open Spec Relation

variable {u : Casing} {l : List MAssignment} {d : Int} {r : Str}

/-- A use inside a type. -/
def UsedIn (l : List MAssignment) (r : Str) (t : MTy) (x : Str) : Prop := ∃ t', Inside l t t' ∧ PackageUse l r t' x

theorem ref_dotless (hw : WellNamed u l) {a b : Str} {t : MTy} (h1 : Resolves l a b t) (h2 : ¬ TimeName b) : '.' ∉ goifyName u a := by
  obtain ⟨t', ht⟩ := resolves_assigned h1 h2
  simpa using (goify_upper_name (hw.typeName a (mem_typeNames (List.mem_of_find?_eq_some ht))) [] (by simp)).2

theorem resolves_end {a b b' : Str} {t t' : MTy} (h : Resolves l a b t) (h' : Resolves l a b' t') : b = b' ∧ t = t' := resolves_unique h h'

theorem usedIn_leaf {t : MTy} {x : Str} (h : ∀ t', Inside l t t' → t' = t) : UsedIn l r t x ↔ PackageUse l r t x :=
  ⟨fun ⟨t', h1, h2⟩ => by rw [h t' h1] at h2; exact h2, fun h => ⟨t, .here _, h⟩⟩

mutual

/-- The package identifiers in the translation of a type. -/
theorem typeUses (hw : WellNamed u l) {t : MTy} {e : GoExpr} {x : Str} (hx : '.' ∈ x) : GoTypeOf u l d r t e → (x ∈ exprIdents e ↔ UsedIn l r t x)
  | .boolean => by
    rw [usedIn_leaf (by rintro _ ⟨⟩; rfl)]
    exact ⟨fun h => by simp [exprIdents] at h; subst h; simp at hx, fun h => by cases h⟩
  | .int64 _ hr => by
    rw [usedIn_leaf (by rintro _ ⟨⟩; rfl)]
    exact ⟨fun h => by simp [exprIdents] at h; subst h; simp at hx, fun h => by cases h with | integer _ h => rw [hr] at h; exact absurd h (by decide)⟩
  | .bigInt _ hr => by
    rw [usedIn_leaf (by rintro _ ⟨⟩; rfl)]
    exact ⟨fun h => by simp [exprIdents] at h; subst h; exact .integer _ hr, fun h => by cases h; simp [exprIdents]⟩
  | .real => by
    rw [usedIn_leaf (by rintro _ ⟨⟩; rfl)]
    exact ⟨fun h => by simp [exprIdents] at h; subst h; simp at hx, fun h => by cases h⟩
  | .characterString => by
    rw [usedIn_leaf (by rintro _ ⟨⟩; rfl)]
    exact ⟨fun h => by simp [exprIdents] at h; subst h; simp at hx, fun h => by cases h⟩
  | .restrictedString _ => by
    rw [usedIn_leaf (by rintro _ ⟨⟩; rfl)]
    exact ⟨fun h => by simp [exprIdents] at h; subst h; simp at hx, fun h => by cases h⟩
  | .octetString => by
    rw [usedIn_leaf (by rintro _ ⟨⟩; rfl)]
    exact ⟨fun h => by simp [exprIdents] at h; subst h; simp at hx, fun h => by cases h⟩
  | .bitString _ => by
    rw [usedIn_leaf (by rintro _ ⟨⟩; rfl)]
    exact ⟨fun h => by simp [exprIdents] at h; subst h; exact .bitString _, fun h => by cases h; simp [exprIdents]⟩
  | .objectIdentifier => by
    rw [usedIn_leaf (by rintro _ ⟨⟩; rfl)]
    exact ⟨fun h => by simp [exprIdents] at h; subst h; exact .objectIdentifier, fun h => by cases h; simp [exprIdents]⟩
  | .enumerated _ _ => by
    rw [usedIn_leaf (by rintro _ ⟨⟩; rfl)]
    exact ⟨fun h => by simp [exprIdents] at h; subst h; exact .enumerated _ _, fun h => by cases h; simp [exprIdents]⟩
  | .any _ => by
    rw [usedIn_leaf (by rintro _ ⟨⟩; rfl)]
    exact ⟨fun h => by simp [exprIdents] at h, fun h => by cases h⟩
  | .sequence a b fs hf => by
    rw [exprIdents, fieldUses hw hx hf]
    constructor
    · rintro ⟨m, hm, t', h1, h2⟩
      exact ⟨t', .sequence _ _ m _ hm h1, h2⟩
    · rintro ⟨t', h1, h2⟩
      cases h1 with
      | here => cases h2
      | sequence _ _ m _ hm h1 => exact ⟨m, hm, t', h1, h2⟩
  | .set a b fs hf => by
    rw [exprIdents, fieldUses hw hx hf]
    constructor
    · rintro ⟨m, hm, t', h1, h2⟩
      exact ⟨t', .set _ _ m _ hm h1, h2⟩
    · rintro ⟨t', h1, h2⟩
      cases h1 with
      | here => cases h2
      | set _ _ m _ hm h1 => exact ⟨m, hm, t', h1, h2⟩
  | .sequenceOf t e h => by
    rw [exprIdents, typeUses hw hx h]
    constructor
    · rintro ⟨t', h1, h2⟩
      exact ⟨t', .sequenceOf _ _ h1, h2⟩
    · rintro ⟨t', h1, h2⟩
      cases h1 with
      | here => cases h2
      | sequenceOf _ _ h1 => exact ⟨t', h1, h2⟩
  | .setOf t e h => by
    rw [exprIdents, typeUses hw hx h]
    constructor
    · rintro ⟨t', h1, h2⟩
      exact ⟨t', .setOf _ _ h1, h2⟩
    · rintro ⟨t', h1, h2⟩
      cases h1 with
      | here => cases h2
      | setOf _ _ h1 => exact ⟨t', h1, h2⟩
  | .tagged g t k b e h => by
    rw [typeUses hw hx h]
    constructor
    · rintro ⟨t', h1, h2⟩
      exact ⟨t', .tagged _ _ _ _ _ h1, h2⟩
    · rintro ⟨t', h1, h2⟩
      cases h1 with
      | here => cases h2
      | tagged _ _ _ _ _ h1 => exact ⟨t', h1, h2⟩
  | .constrained t c e h => by
    rw [typeUses hw hx h]
    constructor
    · rintro ⟨t', h1, h2⟩
      exact ⟨t', .constrained _ _ _ h1, h2⟩
    · rintro ⟨t', h1, h2⟩
      cases h1 with
      | here => cases h2
      | constrained _ _ _ h1 => exact ⟨t', h1, h2⟩
  | .time a b t h1 h2 => by
    rw [usedIn_leaf (by rintro _ ⟨⟩; rfl)]
    refine ⟨fun h => by simp [exprIdents] at h; subst h; exact .time a b t h1 h2, fun h => ?_⟩
    cases h with
    | time _ _ _ _ _ => simp [exprIdents]
    | bits _ b' t' nb h3 h4 h5 =>
      obtain ⟨rfl, rfl⟩ := resolves_end h1 h3
      exact absurd h2 h4
  | .bits a b t nb h1 h2 h3 => by
    rw [usedIn_leaf (by rintro _ ⟨⟩; rfl)]
    refine ⟨fun h => by simp [exprIdents] at h; subst h; exact .bits a b t nb h1 h2 h3, fun h => ?_⟩
    cases h with
    | bits _ _ _ _ _ _ => simp [exprIdents]
    | time _ b' t' h3 h4 =>
      obtain ⟨rfl, rfl⟩ := resolves_end h1 h3
      exact absurd h4 h2
  | .ref a b t h1 h2 h3 => by
    rw [usedIn_leaf (by rintro _ ⟨⟩; rfl)]
    refine ⟨fun h => ?_, fun h => ?_⟩
    · simp only [exprIdents, List.mem_singleton] at h
      subst h
      exact absurd hx (ref_dotless hw h1 h2)
    · cases h with
      | bits _ b' t' nb h4 h5 h6 =>
        obtain ⟨rfl, rfl⟩ := resolves_end h1 h4
        exact absurd h6 (h3 nb)
      | time _ b' t' h4 h5 =>
        obtain ⟨rfl, rfl⟩ := resolves_end h1 h4
        exact absurd h5 h2
  | .rawChoice alts ext ha => by
    refine ⟨fun h => by simp [exprIdents] at h; subst h; exact ⟨_, .here _, .rawChoice _ _ ha⟩, fun ⟨t', h1, h2⟩ => ?_⟩
    cases h1 with
    | here => cases h2; simp [exprIdents]
    | choice n t _ _ hn _ =>
      obtain ⟨n', t', hm, hat⟩ := ha
      simp only [List.mem_singleton, NamedType.mk.injEq] at hm
      obtain ⟨rfl, rfl⟩ := hm
      exact absurd hat hn
  | .onlyChoice n t ext e hn h => by
    rw [typeUses hw hx h]
    constructor
    · rintro ⟨t', h1, h2⟩
      exact ⟨t', .choice _ _ _ _ hn h1, h2⟩
    · rintro ⟨t', h1, h2⟩
      cases h1 with
      | here =>
        cases h2 with
        | rawChoice _ _ ha =>
          obtain ⟨n', t', hm, hat⟩ := ha
          simp only [List.mem_singleton, NamedType.mk.injEq] at hm
          obtain ⟨rfl, rfl⟩ := hm
          exact absurd hat hn
      | choice _ _ _ _ _ h1 => exact ⟨t', h1, h2⟩
  | .choice alts ext h1 h2 => by
    refine ⟨fun h => by simp [exprIdents] at h, fun ⟨t', h3, h4⟩ => ?_⟩
    cases h3 with
    | here => cases h4 with | rawChoice _ _ ha => exact absurd ha h1
    | choice _ _ _ _ _ _ => simp at h2

theorem fieldUses (hw : WellNamed u l) {xs : List Member} {fs : List GoField} {x : Str} (hx : '.' ∈ x) :
    FieldsOf u l d r xs fs → (x ∈ fieldIdents fs ↔ ∃ m ∈ xs, UsedIn l r m.type x)
  | .nil => by simp [fieldIdents]
  | .cons m ms e tag fs h1 _ h3 => by
    rw [fieldIdents, List.mem_append, typeUses hw hx h1, fieldUses hw hx h3]
    simp

end

theorem forall2_left {α β : Type} {p : α → β → Prop} {as : List α} {bs : List β} (h : List.Forall₂ p as bs) {a : α} (ha : a ∈ as) :
    ∃ b ∈ bs, p a b := by
  obtain ⟨b, hb, hab⟩ := forall2_right h.flip ha
  exact ⟨b, hb, hab⟩

theorem intExpr_uses {n : Int} {e : GoExpr} (h : IntExpr r n e) (x : Str) : x ∈ exprIdents e ↔ x = c! "big.NewInt" ∧ r = c! "big.Int" := by
  obtain ⟨s, -, -, rfl⟩ := h
  split
  · rename_i hr
    simp [exprIdents, hr]
  · rename_i hr
    simp [exprIdents, hr]

/-- The package identifiers used in declarations. -/
theorem declUses (hw : WellNamed u l) (hu : Undotted l) {x : Str} (hx : '.' ∈ x) {as : List MAssignment} {ds : List GoDecl} (h : DeclsFor u l d r as ds) :
    as ⊆ l → ((∃ dc ∈ ds, x ∈ declIdents dc) ↔ TypeUse l r as x ∨ (x = c! "big.NewInt" ∧ r = c! "big.Int" ∧ NumberWritten as)) := by
  have name : ∀ {n t}, .type n t ∈ l → ∀ s, '.' ∉ s → x ≠ goifyName u n ++ s := by
    rintro n t hm s hs rfl
    exact (goify_upper_name (hw.typeName n (mem_typeNames hm)) s hs).2 hx
  induction h with
  | done =>
    intro _
    simp [TypeUse, Translated, NumberWritten]
  | type n t as dc v ds h1 h2 h3 ih =>
    intro hsub
    have hm : .type n t ∈ l := hsub (by simp)
    have e1 : x ∈ declIdents dc ↔ UsedIn l r t x := by
      cases h1 with
      | struct fs _ he => rw [← typeUses hw hx he]; simp [declIdents]
      | «alias» e _ he _ => rw [← typeUses hw hx he]; simp [declIdents]
      | set e _ he =>
        rw [← typeUses hw hx he]
        have := name hm (c! "SET") (by decide)
        simp [declIdents, exprIdents, this]
    have e2 : (∃ dc ∈ v, x ∈ declIdents dc) ↔ x = c! "big.NewInt" ∧ r = c! "big.Int" ∧
        ∃ nums y k, Core t (.integer nums) ∧ y ∈ nums ∧ NamedNumber.value y = .number k := by
      cases h2 with
      | none hz =>
        refine ⟨by simp, ?_⟩
        rintro ⟨-, -, nums, y, k, hc, hy, -⟩
        rw [hz nums hc] at hy
        simp at hy
      | vars nums specs hc _ hf =>
        simp only [List.mem_singleton, exists_eq_left, declIdents, List.mem_flatMap, List.mem_append]
        constructor
        · rintro ⟨s, hs, h⟩
          obtain ⟨y, hy, hys⟩ := forall2_right hf hs
          rcases h with h | h
          · rw [hys.type] at h
            simp only [exprIdents, List.mem_singleton] at h
            exact absurd h (by simpa using name hm [] (by simp))
          · match hv : y.value with
            | .number k =>
              obtain ⟨e1, e2⟩ := (intExpr_uses (hys.number k hv) x).1 h
              exact ⟨e1, e2, nums, y, k, hc, hy, hv⟩
            | .defined dv =>
              rw [hys.defined dv hv] at h
              simp only [exprIdents, List.mem_singleton] at h
              subst h
              exfalso
              have : '.' ∉ dv.valueName := by
                refine hu _ hm _ ?_
                simp only [assignmentNames, List.mem_cons, List.mem_append]
                refine .inr (.inr ?_)
                rw [namedNumbers_core (core_iff.1 hc)]
                exact List.mem_flatMap.2 ⟨y, hy, by rw [hv]; simp⟩
              rcases List.mem_append.1 hx with hx | hx
              · exact absurd hx (by decide)
              · exact goify_dot this hx
            | .nil =>
              rw [hys.none hv] at h
              simp [exprIdents] at h
        · rintro ⟨e1, e2, nums', y, k, hc', hy, hv⟩
          rw [core_iff] at hc hc'
          rw [hc] at hc'
          cases hc'
          obtain ⟨s, hs, hys⟩ := forall2_left hf hy
          exact ⟨s, hs, .inr ((intExpr_uses (hys.number k hv) x).2 ⟨e1, e2⟩)⟩
    have e3 := ih (fun y hy => hsub (by simp [hy]))
    have split : (∃ dc' ∈ dc :: (v ++ ds), x ∈ declIdents dc') ↔ x ∈ declIdents dc ∨ (∃ dc ∈ v, x ∈ declIdents dc) ∨ ∃ dc ∈ ds, x ∈ declIdents dc := by
      simp only [List.mem_cons, List.mem_append, or_and_right, exists_or, exists_eq_left]
    rw [split, e1, e2, e3]
    constructor
    · rintro (⟨t', h⟩ | ⟨h1, h2, nums, y, k, h3⟩ | ⟨t1, t2, h1, h2⟩ | ⟨h1, h2, h3⟩)
      · exact .inl ⟨t, t', .inl ⟨n, by simp⟩, h⟩
      · exact .inr ⟨h1, h2, .inr ⟨n, t, nums, y, k, by simp, h3⟩⟩
      · refine .inl ⟨t1, t2, ?_, h2⟩
        rcases h1 with ⟨n, h⟩ | ⟨n, v, h, hl⟩
        · exact .inl ⟨n, by simp [h]⟩
        · exact .inr ⟨n, v, by simp [h], hl⟩
      · refine .inr ⟨h1, h2, ?_⟩
        rcases h3 with ⟨n, t, k, h⟩ | ⟨n, t, nums, y, k, h, h'⟩
        · exact .inl ⟨n, t, k, by simp [h]⟩
        · exact .inr ⟨n, t, nums, y, k, by simp [h], h'⟩
    · rintro (⟨t1, t2, h1, h2⟩ | ⟨h1, h2, h3⟩)
      · rcases h1 with ⟨m, h⟩ | ⟨m, v, h, hl⟩
        · rcases List.mem_cons.1 h with h | h
          · cases h
            exact .inl ⟨t2, h2⟩
          · exact .inr (.inr (.inl ⟨t1, t2, .inl ⟨m, h⟩, h2⟩))
        · exact .inr (.inr (.inl ⟨t1, t2, .inr ⟨m, v, by simpa using h, hl⟩, h2⟩))
      · rcases h3 with ⟨m, t', k, h⟩ | ⟨m, t', nums, y, k, h, h'⟩
        · exact .inr (.inr (.inr ⟨h1, h2, .inl ⟨m, t', k, by simpa using h⟩⟩))
        · rcases List.mem_cons.1 h with h | h
          · cases h
            exact .inr (.inl ⟨h1, h2, nums, y, k, h'⟩)
          · exact .inr (.inr (.inr ⟨h1, h2, .inr ⟨m, t', nums, y, k, h, h'⟩⟩))
  | value n t v as ty e ds h1 h2 h3 ih =>
    intro hsub
    have e1 : x ∈ declIdents (.var [⟨c! "Val" ++ goifyName u n, ty, e⟩]) ↔ UsedIn l r t x ∨ (x = c! "big.NewInt" ∧ r = c! "big.Int" ∧ ∃ k, v = .number k) := by
      rw [← typeUses hw hx h2]
      simp only [declIdents, List.flatMap_cons, List.flatMap_nil, List.append_nil, List.mem_append]
      cases h1 with
      | number k e he => rw [intExpr_uses he x]; simp
      | boolean b => simp [exprIdents]
      | real y => simp [exprIdents]
    have e3 := ih (fun y hy => hsub (by simp [hy]))
    have split : (∃ dc' ∈ GoDecl.var [⟨c! "Val" ++ goifyName u n, ty, e⟩] :: ds, x ∈ declIdents dc') ↔
        x ∈ declIdents (.var [⟨c! "Val" ++ goifyName u n, ty, e⟩]) ∨ ∃ dc ∈ ds, x ∈ declIdents dc := by
      simp only [List.mem_cons, or_and_right, exists_or, exists_eq_left]
    rw [split, e1, e3]
    constructor
    · rintro ((⟨t', h⟩ | ⟨g1, g2, k, rfl⟩) | ⟨t1, t2, h1, h2⟩ | ⟨h1, h2, h3⟩)
      · exact .inl ⟨t, t', .inr ⟨n, v, by simp, h1.literal⟩, h⟩
      · exact .inr ⟨g1, g2, .inl ⟨n, t, k, by simp⟩⟩
      · refine .inl ⟨t1, t2, ?_, h2⟩
        rcases h1 with ⟨n, h⟩ | ⟨n, v, h, hl⟩
        · exact .inl ⟨n, by simp [h]⟩
        · exact .inr ⟨n, v, by simp [h], hl⟩
      · refine .inr ⟨h1, h2, ?_⟩
        rcases h3 with ⟨n, t, k, h⟩ | ⟨n, t, nums, y, k, h, h'⟩
        · exact .inl ⟨n, t, k, by simp [h]⟩
        · exact .inr ⟨n, t, nums, y, k, by simp [h], h'⟩
    · rintro (⟨t1, t2, h1, h2⟩ | ⟨g1, g2, h3⟩)
      · rcases h1 with ⟨m, h⟩ | ⟨m, v, h, hl⟩
        · exact .inr (.inl ⟨t1, t2, .inl ⟨m, by simpa using h⟩, h2⟩)
        · rcases List.mem_cons.1 h with h | h
          · cases h
            exact .inl (.inl ⟨t2, h2⟩)
          · exact .inr (.inl ⟨t1, t2, .inr ⟨m, v, h, hl⟩, h2⟩)
      · rcases h3 with ⟨m, t', k, h⟩ | ⟨m, t', nums, y, k, h, h'⟩
        · rcases List.mem_cons.1 h with h | h
          · cases h
            exact .inl (.inr ⟨g1, g2, k, rfl⟩)
          · exact .inr (.inr ⟨g1, g2, .inl ⟨m, t', k, h⟩⟩)
        · exact .inr (.inr ⟨g1, g2, .inr ⟨m, t', nums, y, k, by simpa using h, h'⟩⟩)
  | skip n t v as ds hn _ ih =>
    intro hsub
    rw [ih (fun y hy => hsub (by simp [hy]))]
    refine or_congr ⟨?_, ?_⟩ (and_congr_right fun _ => and_congr_right fun _ => ⟨?_, ?_⟩)
    · rintro ⟨t1, t2, h1, h2⟩
      refine ⟨t1, t2, ?_, h2⟩
      rcases h1 with ⟨n, h⟩ | ⟨n, v, h, hl⟩
      · exact .inl ⟨n, by simp [h]⟩
      · exact .inr ⟨n, v, by simp [h], hl⟩
    · rintro ⟨t1, t2, h1, h2⟩
      refine ⟨t1, t2, ?_, h2⟩
      rcases h1 with ⟨m, h⟩ | ⟨m, v, h, hl⟩
      · exact .inl ⟨m, by simpa using h⟩
      · rcases List.mem_cons.1 h with h | h
        · cases h
          exact absurd hl hn
        · exact .inr ⟨m, v, h, hl⟩
    · rintro (⟨n, t, k, h⟩ | ⟨n, t, nums, y, k, h, h'⟩)
      · exact .inl ⟨n, t, k, by simp [h]⟩
      · exact .inr ⟨n, t, nums, y, k, by simp [h], h'⟩
    · rintro (⟨m, t', k, h⟩ | ⟨m, t', nums, y, k, h, h'⟩)
      · rcases List.mem_cons.1 h with h | h
        · cases h
          exact absurd trivial hn
        · exact .inl ⟨m, t', k, h⟩
      · exact .inr ⟨m, t', nums, y, k, by simpa using h, h'⟩
  | nil as ds _ ih =>
    intro hsub
    rw [ih (fun y hy => hsub (by simp [hy]))]
    simp [TypeUse, Translated, NumberWritten]

end Asn1go.CG
