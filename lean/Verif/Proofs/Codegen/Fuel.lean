import Verif.Proofs.Codegen.Basic

/-! More fuel never changes a result, and if no type is an alias of itself a fixed amount is enough. -/

namespace Asn1go.CG

open Spec

/-- `b` returns what `a` returns, if `a` returns. -/
def Le {α : Type} (a b : Gen α) : Prop := ∀ x, a = some x → b = some x

theorem Le.refl {α : Type} (a : Gen α) : Le a a := fun _ h => h

theorem le_none {α : Type} (a : Gen α) : Le none a := fun _ h => by cases h

theorem Le.bind {α β : Type} {a a' : Gen α} {f f' : α → Gen β} (h : Le a a') (hf : ∀ v, Le (f v) (f' v)) : Le (a >>= f) (a' >>= f') := by
  rintro ⟨b, l⟩ hb
  obtain ⟨v, l1, l2, h1, h2, rfl⟩ := bind_some.1 hb
  exact bind_some.2 ⟨v, l1, l2, h _ h1, hf v _ h2, rfl⟩

/-- The same context with other fuel. -/
abbrev fueled (c : GenCtx) (n : Nat) : GenCtx := { c with fuel := n }

section Mono

variable {c : GenCtx} {n n' : Nat} (hle : n ≤ n')

include hle

theorem le_resolve (a : Str) : Le (resolveTypeReference (fueled c n) a) (resolveTypeReference (fueled c n') a) :=
  fun _ h => resolve_mono hle h

omit hle in
theorem le_taggedWith {f f' : Str → Gen Bool} (h : ∀ a, Le (f a) (f' a)) : ∀ t, Le (taggedWith f t) (taggedWith f' t) := by
  refine wrapInduct ?_ ?_ ?_
  · intros
    exact Le.refl _
  · intro t x ih
    rw [taggedWith, taggedWith]
    exact ih
  · intro t h1 h2
    cases t <;> first | exact Le.refl _ | exact absurd rfl (h1 _ _ _ _) | exact absurd rfl (h2 _ _) | skip
    rename_i a
    rw [taggedWith, taggedWith]
    split
    · exact Le.refl _
    · exact h a

theorem le_taggedChoice : ∀ (k k' : Nat) (_ : k ≤ k') (t : MTy),
    Le (taggedChoiceTypeAlternative (fueled c n) k t) (taggedChoiceTypeAlternative (fueled c n') k' t)
  | 0, 0, _, t => by
    rw [taggedChoiceTypeAlternative, taggedChoiceTypeAlternative]
    exact Le.refl _
  | 0, k' + 1, _, t => by
    rw [taggedChoiceTypeAlternative, taggedChoiceTypeAlternative]
    exact le_taggedWith (fun a => le_none _) t
  | k + 1, 0, h, t => by omega
  | k + 1, k' + 1, h, t => by
    rw [taggedChoiceTypeAlternative, taggedChoiceTypeAlternative]
    refine le_taggedWith (fun a => ?_) t
    refine Le.bind (le_resolve hle a) (fun v => ?_)
    cases v with
    | none => exact Le.refl _
    | some p => exact le_taggedChoice k k' (by omega) p.2

theorem le_hasTagged : ∀ l, Le (hasTaggedAlternatives (fueled c n) l) (hasTaggedAlternatives (fueled c n') l)
  | [] => Le.refl _
  | f :: l => by
    rw [hasTaggedAlternatives, hasTaggedAlternatives]
    refine Le.bind (le_taggedChoice hle n n' hle f.type) (fun v => ?_)
    split
    · exact Le.refl _
    · exact le_hasTagged l

omit hle in
theorem tagComponents_fuel (name : Str) : ∀ t, tagComponents (fueled c n) name t = tagComponents (fueled c n') name t := by
  refine wrapInduct ?_ ?_ ?_
  · intro g t k h ih
    rw [tagComponents, tagComponents, ih]
  · intro t x ih
    rw [tagComponents, tagComponents, ih]
  · intro t h1 h2
    cases t <;> first | rfl | exact absurd rfl (h1 _ _ _ _) | exact absurd rfl (h2 _ _)

theorem le_kind (t : MTy) : Le (kindComponents (fueled c n) t) (kindComponents (fueled c n') t) := by
  cases t <;> try exact Le.refl _
  rename_i a
  rw [kindComponents, kindComponents]
  cases hu : unwrapToLeafType c.assignments n a with
  | none => exact le_none _
  | some p => simp only [hu, unwrap_mono hle hu]; exact Le.refl _

theorem le_tag (name : Str) (t : MTy) (o : Bool) (d : Option (Value DefinedValue)) :
    Le (asn1TagFromType (fueled c n) name t o d) (asn1TagFromType (fueled c n') name t o d) := by
  unfold asn1TagFromType
  rw [tagComponents_fuel (n := n) (n' := n')]
  refine Le.bind (Le.refl _) (fun v => ?_)
  exact Le.bind (le_kind hle _) (fun _ => Le.refl _)

theorem le_body_aux : (∀ t, Le (generateTypeBody (fueled c n) t) (generateTypeBody (fueled c n') t)) ∧
    (∀ l, Le (generateFields (fueled c n) l) (generateFields (fueled c n') l)) := by
  let P := fun t => Le (generateTypeBody (fueled c n) t) (generateTypeBody (fueled c n') t)
  let Q := fun l => Le (generateFields (fueled c n) l) (generateFields (fueled c n') l)
  have hseq : ∀ a b, Q a → Q b → P (.sequence a b) := by
    intro a b h1 h2
    show Le _ _
    rw [generateTypeBody, generateTypeBody]
    exact Le.bind h1 fun _ => Le.bind h2 fun _ => Le.refl _
  have hset : ∀ a b, Q a → Q b → P (.set a b) := by
    intro a b h1 h2
    show Le _ _
    rw [generateTypeBody, generateTypeBody]
    exact Le.bind h1 fun _ => Le.bind h2 fun _ => Le.refl _
  have hseqOf : ∀ t, P t → P (.sequenceOf t) := by
    intro t h
    show Le _ _
    rw [generateTypeBody, generateTypeBody]
    exact Le.bind h fun _ => Le.refl _
  have hsetOf : ∀ t, P t → P (.setOf t) := by
    intro t h
    show Le _ _
    rw [generateTypeBody, generateTypeBody]
    exact Le.bind h fun _ => Le.refl _
  have htag : ∀ g t k h, P t → P (.tagged g t k h) := by
    intro g t k h ih
    show Le _ _
    rw [generateTypeBody, generateTypeBody]
    exact ih
  have hcon : ∀ t x, P t → P (.constrained t x) := by
    intro t x ih
    show Le _ _
    rw [generateTypeBody, generateTypeBody]
    exact ih
  have hcho : ∀ a e, (∀ n t, .mk n t ∈ a → P t) → P (.choice a e) := by
    intro a e ih
    show Le _ _
    rw [generateTypeBody, generateTypeBody]
    refine Le.bind (le_hasTagged hle a) fun v => ?_
    split
    · exact Le.refl _
    · cases a with
      | nil => exact Le.refl _
      | cons x a =>
        cases a with
        | nil =>
          obtain ⟨nm, t⟩ := x
          rw [generateOnlyAlternative, generateOnlyAlternative]
          exact ih nm t (by simp)
        | cons y a =>
          rw [generateOnlyAlternative, generateOnlyAlternative]
          · exact Le.refl _
          · simp
          · simp
  have hsimple : ∀ t, simple t = true → P t := by
    intro t hs
    cases t <;> simp [simple] at hs <;> try exact Le.refl _
    rename_i a
    show Le _ _
    rw [generateTypeBody, generateTypeBody]
    refine Le.bind (le_resolve hle a) fun v => ?_
    exact Le.refl _
  have hnil : Q [] := Le.refl _
  have hnamed : ∀ n t o d r, P t → Q r → Q (.named (.mk n t) o d :: r) := by
    intro nm t o d r h1 h2
    show Le _ _
    rw [generateFields, generateFields]
    exact Le.bind h1 fun _ => Le.bind (le_tag hle _ _ _ _) fun _ => Le.bind h2 fun _ => Le.refl _
  have hof : ∀ t r, Q r → Q (.componentsOf t :: r) := by
    intro t r h
    show Le _ _
    rw [generateFields, generateFields]
    exact Le.bind (Le.refl _) fun _ => h
  have hnilc : ∀ r, Q r → Q (.nil :: r) := by
    intro r h
    show Le _ _
    rw [generateFields, generateFields]
    exact h
  exact ⟨induct hseq hset hseqOf hsetOf htag hcon hcho hsimple hnil hnamed hof hnilc,
    inductList hseq hset hseqOf hsetOf htag hcon hcho hsimple hnil hnamed hof hnilc⟩

theorem le_body (t : MTy) : Le (generateTypeBody (fueled c n) t) (generateTypeBody (fueled c n') t) := (le_body_aux hle).1 t

omit hle in
theorem namedNumberSpecs_fuel (r : Str) : ∀ l, namedNumberSpecs (fueled c n) r l = namedNumberSpecs (fueled c n') r l
  | [] => rfl
  | x :: l => by
    rw [namedNumberSpecs, namedNumberSpecs, namedNumberSpecs_fuel r l]
    rfl

omit hle in
theorem associated_fuel (r : Str) (t : MTy) : generateAssociatedValues (fueled c n) r t = generateAssociatedValues (fueled c n') r t := by
  unfold generateAssociatedValues
  simp only [namedNumberSpecs_fuel (n := n) (n' := n')]

theorem le_decls : ∀ l, Le (generateDeclarations (fueled c n) l) (generateDeclarations (fueled c n') l)
  | [] => Le.refl _
  | .type r t :: l => by
    rw [generateDeclarations, generateDeclarations]
    rw [associated_fuel (n := n) (n' := n')]
    refine Le.bind ?_ fun _ => Le.bind (Le.refl _) fun _ => Le.bind (le_decls l) fun _ => Le.refl _
    exact Le.bind (le_body hle t) fun _ => Le.refl _
  | .value r t v :: l => by
    rw [generateDeclarations, generateDeclarations]
    refine Le.bind ?_ fun _ => Le.bind (le_decls l) fun _ => Le.refl _
    unfold tryGenerateValueAssignment
    cases v <;> first | exact Le.bind (le_body hle t) fun _ => Le.refl _ | exact Le.refl _
  | .nil :: l => by
    rw [generateDeclarations, generateDeclarations]
    exact le_decls l

end Mono

/-- The context made by `Generate`. -/
abbrev ctxOf (u : Casing) (fuel : Nat) (p : GenParams) (m : Module) : GenCtx :=
  ⟨u, fuel, m.tagDefault, m.moduleBody.assignmentList, p.integerRepr⟩

/-- More fuel does not change the result of the generator. -/
theorem generateFile_mono {u : Casing} {fuel fuel' : Nat} (hle : fuel ≤ fuel') {p : GenParams} {m : Module} {r : Except GenError GoFile}
    (h : generateFile u fuel p m = some r) : generateFile u fuel' p m = some r := by
  unfold generateFile at h ⊢
  split at h
  · rename_i ha
    rw [if_pos ha]
    exact h
  · rename_i ha
    rw [if_neg ha]
    simp only at h ⊢
    cases hd : generateDeclarations (ctxOf u fuel p m) m.moduleBody.assignmentList with
    | none => rw [hd] at h; cases h
    | some q =>
      rw [hd] at h
      have := le_decls (c := (ctxOf u fuel p m)) hle _ _ hd
      rw [this]
      exact h

/-! ### Enough fuel -/

theorem bind_total {α β : Type} {a : Gen α} {f : α → Gen β} (h : ∃ x, a = some x) (hf : ∀ v, ∃ x, f v = some x) :
    ∃ x, (a >>= f) = some x := by
  obtain ⟨⟨v, l⟩, h⟩ := h
  obtain ⟨⟨w, l'⟩, hf⟩ := hf v
  exact ⟨_, bind_some.2 ⟨v, l, l', h, hf, rfl⟩⟩

theorem pure_total {α : Type} (a : α) : ∃ x, (pure a : Gen α) = some x := ⟨_, rfl⟩
theorem err_total (e : GenErr) : ∃ x, appendError e = some x := ⟨_, rfl⟩
theorem req_total (m : Str) : ∃ x, requireModule m = some x := ⟨_, rfl⟩

theorem explicit_total (name : Str) (k : Int) : ∃ x, explicitComponents name k = some x := by
  unfold explicitComponents
  split
  · exact bind_total (err_total _) fun _ => pure_total _
  · exact pure_total _

/-- Types whose core is not a reference. -/
theorem taggedWith_leaf {f : Str → Gen Bool} {t c : MTy} (hc : Core t c) (hn : ∀ a, c ≠ .ref a) :
    ∃ b, taggedWith f t = pure b ∧ ∀ l, (b = true ↔ AltTagged l t) := by
  induction hc with
  | tagged g t c k h _ _ => exact ⟨true, rfl, fun l => ⟨fun _ => .tagged g t k h, fun _ => rfl⟩⟩
  | constrained t c x _ ih =>
    obtain ⟨b, h1, h2⟩ := ih hn
    refine ⟨b, by rw [taggedWith]; exact h1, fun l => ⟨fun h => .constrained _ _ ((h2 l).1 h), fun h => ?_⟩⟩
    cases h with
    | constrained _ _ h => exact (h2 l).2 h
  | done t h1 h2 =>
    refine ⟨false, ?_, fun l => ⟨by simp, fun h => ?_⟩⟩
    · cases t <;> first | rfl | exact absurd rfl (h1 _ _ _ _) | exact absurd rfl (h2 _ _) | exact absurd rfl (hn _)
    · cases h with
      | tagged g t k h => exact absurd rfl (h1 _ _ _ _)
      | constrained t x _ => exact absurd rfl (h2 _ _)
      | ref a b t _ _ _ => exact absurd rfl (hn _)

/-- What a reference leads to is not a reference. -/
theorem resolves_core {l : List MAssignment} {a b : Str} {t : MTy} (h : Resolves l a b t) : ∃ c, Core t c ∧ ∀ x, c ≠ .ref x := by
  cases h with
  | assigned _ _ h hn =>
    clear hn
    induction h with
    | «alias» _ _ _ _ _ _ ih => exact ih
    | assigned a t c _ hc hn => exact ⟨c, hc, hn⟩
    | unassigned a _ => exact ⟨.nil, .done _ (by simp) (by simp), by simp⟩
  | generalizedTime h => exact ⟨_, .tagged _ _ _ _ _ (.done _ (by simp) (by simp)), by simp⟩

section Total

variable {c : GenCtx} (hac : Acyclic c.assignments) (hf : c.assignments.length < c.fuel)

include hac hf

theorem resolve_total (a : Str) : ∃ x, resolveTypeReference c a = some x := by
  obtain ⟨⟨r, t⟩, h⟩ := unwrap_total hac a hf
  unfold resolveTypeReference
  rw [h]
  simp only
  split
  · exact pure_total _
  · split
    · exact pure_total _
    · exact bind_total (err_total _) fun _ => pure_total _

omit hac hf in
theorem taggedWith_total {f : Str → Gen Bool} (h : ∀ a, ∃ x, f a = some x) : ∀ t, ∃ x, taggedWith f t = some x := by
  refine wrapInduct ?_ ?_ ?_
  · intros
    exact pure_total _
  · intro t x ih
    rw [taggedWith]
    exact ih
  · intro t h1 h2
    cases t <;> first | exact ⟨_, rfl⟩ | exact absurd rfl (h1 _ _ _ _) | exact absurd rfl (h2 _ _) | skip
    rename_i a
    rw [taggedWith]
    split
    · exact pure_total _
    · exact h a

theorem taggedChoice_total (k : Nat) (t : MTy) : ∃ x, taggedChoiceTypeAlternative c (k + 1) t = some x := by
  rw [taggedChoiceTypeAlternative]
  refine taggedWith_total (fun a => ?_) t
  obtain ⟨⟨x, log⟩, hr⟩ := resolve_total hac hf a
  rcases resolve_some hr with ⟨r, t', rfl, rfl, hres⟩ | ⟨rfl, rfl, _⟩
  · obtain ⟨cc, h1, h2⟩ := resolves_core hres
    have hk : ∃ b, taggedChoiceTypeAlternative c k t' = pure b := by
      cases k with
      | zero =>
        rw [taggedChoiceTypeAlternative]
        obtain ⟨b, hb, _⟩ := taggedWith_leaf (f := fun _ => none) h1 h2
        exact ⟨b, hb⟩
      | succ k =>
        rw [taggedChoiceTypeAlternative]
        obtain ⟨b, hb, _⟩ := taggedWith_leaf h1 h2
        exact ⟨b, hb⟩
    obtain ⟨b, hb⟩ := hk
    exact ⟨_, bind_some.2 ⟨_, _, _, hr, hb, rfl⟩⟩
  · exact ⟨_, bind_some.2 ⟨_, _, _, hr, rfl, rfl⟩⟩

theorem hasTagged_total : ∀ l, ∃ x, hasTaggedAlternatives c l = some x
  | [] => pure_total _
  | f :: l => by
    rw [hasTaggedAlternatives]
    refine bind_total ?_ fun v => ?_
    · cases h : c.fuel with
      | zero => omega
      | succ k => exact taggedChoice_total hac hf k f.type
    · split
      · exact pure_total _
      · exact hasTagged_total l

omit hac hf in
theorem tagComponents_total (name : Str) : ∀ t, ∃ x, tagComponents c name t = some x := by
  refine wrapInduct ?_ ?_ ?_
  · intro g t k h ih
    rw [tagComponents]
    refine bind_total ?_ fun _ => bind_total ?_ fun _ => bind_total ih fun _ => pure_total _
    · exact explicit_total _ _
    · unfold tagNumber
      split
      · exact pure_total _
      · exact bind_total (err_total _) fun _ => pure_total _
  · intro t x ih
    rw [tagComponents]
    exact ih
  · intro t h1 h2
    cases t <;> first | exact ⟨_, rfl⟩ | exact absurd rfl (h1 _ _ _ _) | exact absurd rfl (h2 _ _)

theorem kind_total (t : MTy) : ∃ x, kindComponents c t = some x := by
  unfold kindComponents
  split
  · repeat' split
    all_goals exact pure_total _
  · exact pure_total _
  · exact pure_total _
  · rename_i a
    obtain ⟨⟨r, t⟩, h⟩ := unwrap_total hac a hf
    rw [h]
    simp only
    repeat' split
    all_goals exact pure_total _
  · exact pure_total _

theorem tag_total (name : Str) (t : MTy) (o : Bool) (d : Option (Value DefinedValue)) : ∃ x, asn1TagFromType c name t o d = some x := by
  unfold asn1TagFromType
  exact bind_total (tagComponents_total name t) fun _ => bind_total (kind_total hac hf _) fun _ => pure_total _

theorem body_total_aux : (∀ t, ∃ x, generateTypeBody c t = some x) ∧ (∀ l, ∃ x, generateFields c l = some x) := by
  let P := fun t => ∃ x, generateTypeBody c t = some x
  let Q := fun l => ∃ x, generateFields c l = some x
  have hseq : ∀ a b, Q a → Q b → P (.sequence a b) := by
    intro a b h1 h2
    show ∃ x, _
    rw [generateTypeBody]
    exact bind_total h1 fun _ => bind_total h2 fun _ => pure_total _
  have hset : ∀ a b, Q a → Q b → P (.set a b) := by
    intro a b h1 h2
    show ∃ x, _
    rw [generateTypeBody]
    exact bind_total h1 fun _ => bind_total h2 fun _ => pure_total _
  have hseqOf : ∀ t, P t → P (.sequenceOf t) := by
    intro t h
    show ∃ x, _
    rw [generateTypeBody]
    exact bind_total h fun _ => pure_total _
  have hsetOf : ∀ t, P t → P (.setOf t) := by
    intro t h
    show ∃ x, _
    rw [generateTypeBody]
    exact bind_total h fun _ => pure_total _
  have htag : ∀ g t k h, P t → P (.tagged g t k h) := by
    intro g t k h ih
    show ∃ x, _
    rw [generateTypeBody]
    exact ih
  have hcon : ∀ t x, P t → P (.constrained t x) := by
    intro t x ih
    show ∃ x, _
    rw [generateTypeBody]
    exact ih
  have hcho : ∀ a e, (∀ n t, .mk n t ∈ a → P t) → P (.choice a e) := by
    intro a e ih
    show ∃ x, _
    rw [generateTypeBody]
    refine bind_total (hasTagged_total hac hf a) fun v => ?_
    split
    · exact pure_total _
    · cases a with
      | nil => exact pure_total _
      | cons x a =>
        cases a with
        | nil =>
          obtain ⟨nm, t⟩ := x
          rw [generateOnlyAlternative]
          exact ih nm t (by simp)
        | cons y a =>
          rw [generateOnlyAlternative]
          · exact pure_total _
          · simp
  have hsimple : ∀ t, simple t = true → P t := by
    intro t hs
    show ∃ x, _
    cases t <;> simp [simple] at hs <;> rw [generateTypeBody] <;>
      try first | exact pure_total _ | exact bind_total (err_total _) fun _ => pure_total _ | exact bind_total (req_total _) fun _ => pure_total _
    · split
      · exact pure_total _
      · split
        · exact bind_total (req_total _) fun _ => pure_total _
        · exact bind_total (err_total _) fun _ => pure_total _
    · rename_i a
      refine bind_total (resolve_total hac hf a) fun v => ?_
      cases v with
      | none => exact pure_total _
      | some p =>
        refine bind_total ?_ fun w => ?_
        · unfold generateSpecialCase
          split
          · exact bind_total (req_total _) fun _ => pure_total _
          · split
            · exact bind_total (req_total _) fun _ => pure_total _
            · exact pure_total _
        · cases w <;> exact pure_total _
  have hnil : Q [] := pure_total _
  have hnamed : ∀ n t o d r, P t → Q r → Q (.named (.mk n t) o d :: r) := by
    intro nm t o d r h1 h2
    show ∃ x, _
    rw [generateFields]
    exact bind_total h1 fun _ => bind_total (tag_total hac hf _ _ _ _) fun _ => bind_total h2 fun _ => pure_total _
  have hof : ∀ t r, Q r → Q (.componentsOf t :: r) := by
    intro t r h
    show ∃ x, _
    rw [generateFields]
    exact bind_total (err_total _) fun _ => h
  have hnilc : ∀ r, Q r → Q (.nil :: r) := by
    intro r h
    show ∃ x, _
    rw [generateFields]
    exact h
  exact ⟨induct hseq hset hseqOf hsetOf htag hcon hcho hsimple hnil hnamed hof hnilc,
    inductList hseq hset hseqOf hsetOf htag hcon hcho hsimple hnil hnamed hof hnilc⟩

omit hac hf in
theorem namedNumberSpecs_total (ref : Str) : ∀ l, ∃ x, namedNumberSpecs c ref l = some x
  | [] => pure_total _
  | n :: l => by
    rw [namedNumberSpecs]
    refine bind_total ?_ fun _ => bind_total (namedNumberSpecs_total ref l) fun _ => pure_total _
    unfold namedNumberExpr
    split
    · exact pure_total _
    · split
      · exact bind_total (err_total _) fun _ => pure_total _
      · exact pure_total _
    · exact pure_total _

theorem decls_total : ∀ l, ∃ x, generateDeclarations c l = some x
  | [] => pure_total _
  | .type r t :: l => by
    rw [generateDeclarations]
    refine bind_total ?_ fun _ => bind_total ?_ fun _ => bind_total (decls_total l) fun _ => pure_total _
    · unfold generateTypeDecl
      refine bind_total ((body_total_aux hac hf).1 t) fun v => ?_
      obtain ⟨b, s⟩ := v
      simp only
      split <;> exact pure_total _
    · unfold generateAssociatedValues
      split
      · split
        · exact pure_total _
        · exact bind_total (namedNumberSpecs_total _ _) fun _ => pure_total _
      · exact pure_total _
  | .value r t v :: l => by
    rw [generateDeclarations]
    refine bind_total ?_ fun _ => bind_total (decls_total l) fun _ => pure_total _
    unfold tryGenerateValueAssignment
    cases v <;> first | exact bind_total ((body_total_aux hac hf).1 t) fun _ => pure_total _ | exact pure_total _
  | .nil :: l => by
    rw [generateDeclarations]
    exact decls_total l

end Total

/-- Without cycles the generator returns. -/
theorem generateFile_total {u : Casing} {p : GenParams} {m : Module} (hac : Acyclic m.moduleBody.assignmentList) {fuel : Nat}
    (hf : m.moduleBody.assignmentList.length < fuel) : ∃ r, generateFile u fuel p m = some r := by
  unfold generateFile
  split
  · exact ⟨_, rfl⟩
  · simp only
    obtain ⟨⟨d, log⟩, h⟩ := decls_total (c := (ctxOf u fuel p m)) hac hf m.moduleBody.assignmentList
    rw [h]
    simp only
    split
    · exact ⟨_, rfl⟩
    · exact ⟨_, rfl⟩

end Asn1go.CG
