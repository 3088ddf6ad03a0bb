import Verif.Proofs.Codegen.Body
import Verif.Proofs.Codegen.Fuel

/-! Files made by the generator. -/

namespace Asn1go.CG

open Spec

/-- What a successful run has done. -/
theorem file_ok {u : Casing} {fuel : Nat} {p : GenParams} {m : Module} {f : GoFile} (h : generateFile u fuel p m = some (.ok f)) :
    m.tagDefault ≠ TAGS_AUTOMATIC ∧ ∃ decls log, generateDeclarations (ctxOf u fuel p m) m.moduleBody.assignmentList = some (decls, log) ∧
      errorsOf log = [] ∧ f.package = (if p.package.length > 0 then p.package else goifyName u m.moduleIdentifier.reference) ∧
      f.decls = (requiredFrom [] log).map GoDecl.imp ++ decls := by
  unfold generateFile at h
  split at h
  · simp at h
  · rename_i ha
    refine ⟨ha, ?_⟩
    simp only at h
    cases hd : generateDeclarations (ctxOf u fuel p m) m.moduleBody.assignmentList with
    | none => rw [hd] at h; simp at h
    | some q =>
      obtain ⟨decls, log⟩ := q
      rw [hd] at h
      simp only at h
      split at h
      · simp at h
      · rename_i he
        simp only [Option.some.injEq, Except.ok.injEq] at h
        subst h
        exact ⟨decls, log, rfl, by simpa using he, rfl, rfl⟩

theorem file_of_decls {u : Casing} {fuel : Nat} {p : GenParams} {m : Module} (ha : m.tagDefault ≠ TAGS_AUTOMATIC) {decls : List GoDecl}
    {log : List Event} (hd : generateDeclarations (ctxOf u fuel p m) m.moduleBody.assignmentList = some (decls, log)) (he : errorsOf log = []) :
    ∃ f, generateFile u fuel p m = some (.ok f) := by
  unfold generateFile
  rw [if_neg ha]
  simp only
  rw [hd]
  simp only
  rw [if_neg (by simpa using he)]
  exact ⟨_, rfl⟩

/-- No imports in declarations. -/
theorem decls_imports {u : Casing} {l : List MAssignment} {d : Int} {r : Str} {as : List MAssignment} {ds : List GoDecl}
    (h : DeclsFor u l d r as ds) : importsOf ds = [] := by
  induction h with
  | done => rfl
  | type r t as d v ds h1 h2 _ ih =>
    have : importsOf (v ++ ds) = importsOf ds := by
      cases h2 with
      | none _ => rfl
      | vars _ _ _ _ _ => rfl
    have h : importsOf (d :: (v ++ ds)) = importsOf (v ++ ds) := by
      cases h1 <;> exact importsOf.eq_3 _ _ (by simp)
    rw [h, this]
    exact ih
  | value r t v as ty e ds _ _ _ ih => rw [importsOf]; exact ih; simp
  | skip r t v as ds _ _ ih => exact ih
  | nil as ds _ ih => exact ih

theorem imports_append : ∀ (l : List Str) (ds : List GoDecl), importsOf (l.map GoDecl.imp ++ ds) = l ++ importsOf ds
  | [], _ => rfl
  | a :: l, ds => by rw [List.map_cons, List.cons_append, importsOf, imports_append l ds]; rfl

theorem imports_mem {path : Str} : ∀ {ds : List GoDecl}, GoDecl.imp path ∈ ds ↔ path ∈ importsOf ds
  | [] => by simp [importsOf]
  | .imp p :: ds => by rw [importsOf, List.mem_cons, List.mem_cons, imports_mem]; simp
  | .type s :: ds => by rw [importsOf, List.mem_cons, imports_mem]; simp; simp
  | .var s :: ds => by rw [importsOf, List.mem_cons, imports_mem]; simp; simp

/-- The declaration of a type. -/
theorem decls_type {u : Casing} {l : List MAssignment} {d : Int} {r : Str} {as : List MAssignment} {ds : List GoDecl}
    (h : DeclsFor u l d r as ds) {n : Str} {t : MTy} (hm : .type n t ∈ as) :
    ∃ x v, x ∈ ds ∧ v ⊆ ds ∧ TypeDecl u l d r (goifyName u n) t x ∧ NumberVars u r (goifyName u n) t v := by
  induction h with
  | done => simp at hm
  | type r' t' as x v ds h1 h2 _ ih =>
    rcases List.mem_cons.1 hm with hm | hm
    · cases hm
      exact ⟨x, v, by simp, fun y hy => by simp [hy], h1, h2⟩
    · obtain ⟨x, v, hx, hv, h1, h2⟩ := ih hm
      exact ⟨x, v, by simp [hx], fun y hy => by simp [hv hy], h1, h2⟩
  | value r' t' v as ty e ds _ _ _ ih =>
    obtain ⟨x, v, hx, hv, h1, h2⟩ := ih (by simpa using hm)
    exact ⟨x, v, by simp [hx], fun y hy => by simp [hv hy], h1, h2⟩
  | skip r' t' v as ds _ _ ih => exact ih (by simpa using hm)
  | nil as ds _ ih => exact ih (by simpa using hm)

/-- The variable for a value. -/
theorem decls_value {u : Casing} {l : List MAssignment} {d : Int} {r : Str} {as : List MAssignment} {ds : List GoDecl}
    (h : DeclsFor u l d r as ds) {n : Str} {t : MTy} {v : Value DefinedValue} (hl : Literal v) (hm : .value n t v ∈ as) :
    ∃ ty e, .var [⟨c! "Val" ++ goifyName u n, ty, e⟩] ∈ ds ∧ GoTypeOf u l d r t ty ∧ LiteralExpr r v e := by
  induction h with
  | done => simp at hm
  | type r' t' as x v ds h1 h2 _ ih =>
    obtain ⟨ty, e, h1, h2⟩ := ih (by simpa using hm)
    exact ⟨ty, e, List.mem_cons_of_mem _ (List.mem_append_right _ h1), h2⟩
  | value r' t' v as ty e ds h1 h2 _ ih =>
    rcases List.mem_cons.1 hm with hm | hm
    · cases hm
      exact ⟨ty, e, by simp, h2, h1⟩
    · obtain ⟨ty, e, h1, h2⟩ := ih hm
      exact ⟨ty, e, List.mem_cons_of_mem _ h1, h2⟩
  | skip r' t' v as ds hn _ ih =>
    rcases List.mem_cons.1 hm with hm | hm
    · cases hm
      exact absurd hl hn
    · exact ih hm
  | nil as ds _ ih => exact ih (by simpa using hm)

/-- The declarations are those for the assignments without the values that are not literal. -/
theorem decls_skip {u : Casing} {l : List MAssignment} {d : Int} {r : Str} {n : Str} {t : MTy} {v : Value DefinedValue} (hl : ¬ Literal v) :
    ∀ {pre post : List MAssignment} {ds : List GoDecl}, DeclsFor u l d r (pre ++ .value n t v :: post) ds → DeclsFor u l d r (pre ++ post) ds
  | [], _, _, .value _ _ _ _ _ _ _ he _ _ => by cases he <;> exact absurd trivial hl
  | [], _, _, .skip _ _ _ _ _ _ h => h
  | .type _ _ :: _, _, _, .type _ _ _ _ _ _ h1 h2 h3 => .type _ _ _ _ _ _ h1 h2 (decls_skip hl h3)
  | .value _ _ _ :: _, _, _, .value _ _ _ _ _ _ _ h1 h2 h3 => .value _ _ _ _ _ _ _ h1 h2 (decls_skip hl h3)
  | .value _ _ _ :: _, _, _, .skip _ _ _ _ _ h1 h2 => .skip _ _ _ _ _ h1 (decls_skip hl h2)
  | .nil :: _, _, _, .nil _ _ h => .nil _ _ (decls_skip hl h)

theorem reaches_head {l : List MAssignment} {a b : Str} (h : Reaches l a b) : ∃ c, Alias l a c ∧ (c = b ∨ Reaches l c b) := by
  cases h with
  | one _ _ h => exact ⟨b, h, .inl rfl⟩
  | step _ c _ h h' => exact ⟨c, h, .inr h'⟩

theorem reaches_snoc {l : List MAssignment} {a b c : Str} (h : Reaches l a b) (h' : Alias l b c) : Reaches l a c := by
  induction h with
  | one _ _ h => exact .step _ _ _ h (.one _ _ h')
  | step _ _ _ h _ ih => exact .step _ _ _ h (ih h')

/-- A name on a cycle leads nowhere. -/
theorem cycle_no_leaf {l : List MAssignment} {a : Str} (h : Reaches l a a) {r : Str} {t : MTy} : ¬ Leaf l a r t := by
  intro hl
  obtain ⟨fuel, hf⟩ := unwrap_complete hl
  have := unwrap_cycle (l := l) (fun x => Reaches l x x) (fun x hx => by
    obtain ⟨c, hc, hcx⟩ := reaches_head hx
    refine ⟨c, hc, ?_⟩
    rcases hcx with rfl | hcx
    · exact .one _ _ hc
    · exact reaches_snoc hcx hc) fuel a h
  rw [this] at hf
  cases hf

/-- A name on a cycle is never resolved. -/
theorem cycle_none {l : List MAssignment} {a : Str} (h : Reaches l a a) (fuel : Nat) : unwrapToLeafType l fuel a = none := by
  cases hx : unwrapToLeafType l fuel a with
  | none => rfl
  | some x => exact absurd (unwrap_sound hx) (cycle_no_leaf h)

/-- Translating an alias of a name on a cycle does not end. -/
theorem body_cycle {c : GenCtx} {t x : MTy} {b : Str} (hc : Core t x) (hx : x = .ref b) (h : Reaches c.assignments b b) :
    generateTypeBody c t = none := by
  induction hc with
  | tagged g t c k h' _ ih => rw [generateTypeBody]; exact ih hx
  | constrained t c x _ ih => rw [generateTypeBody]; exact ih hx
  | done t _ _ =>
    subst hx
    rw [generateTypeBody]
    refine bind_none.2 (.inl ?_)
    unfold resolveTypeReference
    rw [cycle_none h]

/-- Declarations are made one after the other, so one that does not end keeps all from being made. -/
theorem decls_cycle {c : GenCtx} {r : Str} {t : MTy} (h : generateTypeBody c t = none) :
    ∀ {l : List MAssignment}, (Assignment.type r t : MAssignment) ∈ l → generateDeclarations c l = none
  | [], hm => by cases hm
  | .type r' t' :: l, hm => by
    rw [generateDeclarations]
    rcases List.mem_cons.1 hm with hm | hm
    · cases hm
      refine bind_none.2 (.inl ?_)
      unfold generateTypeDecl
      exact bind_none.2 (.inl h)
    · cases h1 : generateTypeDecl c r' t' with
      | none => exact bind_none.2 (.inl rfl)
      | some x =>
        refine bind_none.2 (.inr ⟨x.1, x.2, rfl, ?_⟩)
        cases h2 : generateAssociatedValues c r' t' with
        | none => exact bind_none.2 (.inl rfl)
        | some y => exact bind_none.2 (.inr ⟨y.1, y.2, rfl, bind_none.2 (.inl (decls_cycle h hm))⟩)
  | .value r' t' v :: l, hm => by
    rw [generateDeclarations]
    rcases List.mem_cons.1 hm with hm | hm
    · cases hm
    · cases h1 : tryGenerateValueAssignment c r' t' v with
      | none => exact bind_none.2 (.inl rfl)
      | some x => exact bind_none.2 (.inr ⟨x.1, x.2, rfl, bind_none.2 (.inl (decls_cycle h hm))⟩)
  | .nil :: l, hm => by
    rw [generateDeclarations]
    rcases List.mem_cons.1 hm with hm | hm
    · cases hm
    · exact decls_cycle h hm

/-- With a cycle of aliases nothing is generated. -/
theorem generateFile_cycle {u : Casing} {p : GenParams} {m : Module} (ha : m.tagDefault ≠ TAGS_AUTOMATIC)
    (hc : ¬ Acyclic m.moduleBody.assignmentList) (fuel : Nat) : generateFile u fuel p m = none := by
  obtain ⟨a, ha'⟩ := not_forall.1 hc
  have ha' := not_not.1 ha'
  obtain ⟨b, ⟨t, hs, hcore⟩, hb⟩ := reaches_head ha'
  have hbb : Reaches m.moduleBody.assignmentList b b := by
    rcases hb with rfl | hb
    · exact ha'
    · exact reaches_snoc hb ⟨t, hs, hcore⟩
  have hm : (Assignment.type a t : MAssignment) ∈ m.moduleBody.assignmentList := List.mem_of_find?_eq_some hs
  have hd := decls_cycle (c := ctxOf u fuel p m) (body_cycle hcore rfl hbb) hm
  unfold generateFile
  rw [if_neg ha]
  simp only
  rw [hd]

theorem supported_core {l : List MAssignment} {d : Int} {r : Str} {t c : MTy} (h : Core t c) (hs : Supported l d r t) : Supported l d r c := by
  induction h with
  | tagged g t c k h _ ih => rw [Supported] at hs; exact ih hs
  | constrained t c x _ ih => rw [Supported] at hs; exact ih hs
  | done t _ _ => exact hs

/-- If all assignments can be translated, there are no cycles. -/
theorem supported_acyclic {l : List MAssignment} {d : Int} {r : Str} (h : ∀ a ∈ l, SupportedAssignment l d r a) : Acyclic l := by
  intro a ha
  obtain ⟨b, ⟨t, has, hc⟩, hb⟩ := reaches_head ha
  have hs := (h _ (List.mem_of_find?_eq_some has)).1
  have := supported_core hc hs
  rw [Supported] at this
  obtain ⟨b', t', hres⟩ := this
  have hbb : Reaches l b b := by
    rcases hb with rfl | hb
    · exact ha
    · exact reaches_snoc hb ⟨t, has, hc⟩
  cases hres with
  | assigned _ _ hl _ => exact cycle_no_leaf hbb hl
  | generalizedTime hl => exact cycle_no_leaf hbb hl

/-- Success, exactly. -/
theorem file_supported {u : Casing} {p : GenParams} {m : Module} : (∃ fuel f, generateFile u fuel p m = some (.ok f)) ↔
    m.tagDefault ≠ TAGS_AUTOMATIC ∧
    ∀ a ∈ m.moduleBody.assignmentList, SupportedAssignment m.moduleBody.assignmentList m.tagDefault p.integerRepr a := by
  constructor
  · rintro ⟨fuel, f, h⟩
    obtain ⟨ha, decls, log, hd, he, _⟩ := file_ok h
    exact ⟨ha, (decls_spec hd).1 he⟩
  · rintro ⟨ha, hs⟩
    have hac := supported_acyclic hs
    obtain ⟨⟨d, log⟩, hd⟩ := decls_total (c := ctxOf u (m.moduleBody.assignmentList.length + 1) p m) hac (Nat.lt_succ_self _)
      m.moduleBody.assignmentList
    obtain ⟨f, hf⟩ := file_of_decls ha hd ((decls_spec hd).2 hs)
    exact ⟨_, f, hf⟩

theorem fieldsOf_mem {u : Casing} {l : List MAssignment} {d : Int} {r : Str} : ∀ {xs : List Member} {fs : List GoField},
    FieldsOf u l d r xs fs → ∀ x ∈ xs, ∃ e tag, GoField.mk (goifyName u x.name) e tag ∈ fs ∧ GoTypeOf u l d r x.type e
  | _, _, .nil, x, hx => by simp at hx
  | _, _, .cons y ys e tag fs h1 h2 h3, x, hx => by
    rcases List.mem_cons.1 hx with rfl | hx
    · exact ⟨e, tag, by simp, h1⟩
    · obtain ⟨e, tag, hm, ht⟩ := fieldsOf_mem h3 x hx
      exact ⟨e, tag, by simp [hm], ht⟩

/-- The translation of a type contains the translations of the types inside. -/
theorem inside_within {u : Casing} {l : List MAssignment} {d : Int} {r : Str} {t t' : MTy} (h : Inside l t t') :
    ∀ {e : GoExpr}, GoTypeOf u l d r t e → ∃ x, Within e x ∧ GoTypeOf u l d r t' x := by
  induction h with
  | here t => intro e h; exact ⟨e, .here e, h⟩
  | sequence a b x t hx _ ih =>
    intro e h
    cases h with
    | sequence _ _ fs hf =>
      obtain ⟨e', tag, hm, ht⟩ := fieldsOf_mem hf x hx
      obtain ⟨y, hy, hty⟩ := ih ht
      exact ⟨y, .field _ _ _ _ _ hm hy, hty⟩
  | set a b x t hx _ ih =>
    intro e h
    cases h with
    | set _ _ fs hf =>
      obtain ⟨e', tag, hm, ht⟩ := fieldsOf_mem hf x hx
      obtain ⟨y, hy, hty⟩ := ih ht
      exact ⟨y, .field _ _ _ _ _ hm hy, hty⟩
  | sequenceOf t t' _ ih =>
    intro e h
    cases h with
    | sequenceOf _ e' h =>
      obtain ⟨y, hy, hty⟩ := ih h
      exact ⟨y, .array _ _ hy, hty⟩
  | setOf t t' _ ih =>
    intro e h
    cases h with
    | setOf _ e' h =>
      obtain ⟨y, hy, hty⟩ := ih h
      exact ⟨y, .array _ _ hy, hty⟩
  | tagged g t t' k h _ ih =>
    intro e h
    cases h with
    | tagged _ _ _ _ _ h => exact ih h
  | constrained t t' x _ ih =>
    intro e h
    cases h with
    | constrained _ _ _ h => exact ih h
  | choice n t t' ext hn _ ih =>
    intro e h
    cases h with
    | rawChoice _ _ hs =>
      obtain ⟨n', t2, hm, ht⟩ := hs
      cases List.mem_singleton.1 hm
      exact absurd ht hn
    | onlyChoice _ _ _ _ _ h => exact ih h
    | choice _ _ _ hl => exact absurd rfl hl

end Asn1go.CG
