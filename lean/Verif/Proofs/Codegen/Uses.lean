import Verif.Proofs.Codegen.Supported
import Verif.Proofs.Codegen.Numbers
import Verif.Spec.GoFile

/-! Packages used and declarations made. -/

namespace Asn1go.CG

open Spec

/-- The import paths the generator knows. -/
def known : List Str := [c! "encoding/asn1", c! "math/big", c! "time"]

/-- The type `asn1.RawValue`, for which no import is made. -/
def rawValue : Str := c! "asn1.RawValue"
/-- The function `big.NewInt`, for which no import is made. -/
def newInt : Str := c! "big.NewInt"

/-- Imports asked for and identifiers used belong together. -/
structure UsesOk (ids : List Str) (log : List Event) (p : Str → Prop) : Prop where
  used : ∀ x ∈ ids, ∀ q, qualifier x = some q → (∃ m, Event.require m ∈ log ∧ packageOf m = q) ∨ p x
  asked : ∀ m, Event.require m ∈ log → m ∈ known ∧ ∃ x ∈ ids, qualifier x = some (packageOf m) ∧ x ≠ rawValue ∧ x ≠ newInt

theorem UsesOk.mono {ids : List Str} {log : List Event} {p q : Str → Prop} (h : UsesOk ids log p) (hpq : ∀ x, p x → q x) : UsesOk ids log q :=
  ⟨fun x hx a ha => (h.used x hx a ha).imp id (hpq x), h.asked⟩

theorem UsesOk.append {a b : List Str} {l l' : List Event} {p : Str → Prop} (h : UsesOk a l p) (h' : UsesOk b l' p) :
    UsesOk (a ++ b) (l ++ l') p := by
  constructor
  · intro x hx q hq
    rcases List.mem_append.1 hx with hx | hx
    · rcases h.used x hx q hq with ⟨m, hm, e⟩ | hp
      · exact .inl ⟨m, by simp [hm], e⟩
      · exact .inr hp
    · rcases h'.used x hx q hq with ⟨m, hm, e⟩ | hp
      · exact .inl ⟨m, by simp [hm], e⟩
      · exact .inr hp
  · intro m hm
    rcases List.mem_append.1 hm with hm | hm
    · obtain ⟨hk, x, hx, e⟩ := h.asked m hm
      exact ⟨hk, x, by simp [hx], e⟩
    · obtain ⟨hk, x, hx, e⟩ := h'.asked m hm
      exact ⟨hk, x, by simp [hx], e⟩

theorem UsesOk.noReq {log : List Event} {p : Str → Prop} (h : NoReq log) : UsesOk [] log p :=
  ⟨fun x hx => by simp at hx, fun m hm => absurd hm (h m)⟩

theorem UsesOk.plain {x : Str} {p : Str → Prop} (h : '.' ∉ x) : UsesOk [x] [] p := by
  refine ⟨fun y hy q hq => ?_, fun m hm => by simp at hm⟩
  rw [List.mem_singleton.1 hy, qualifier, if_neg h] at hq
  cases hq

theorem UsesOk.nil {p : Str → Prop} : UsesOk [] [] p := UsesOk.noReq NoReq.nil

theorem UsesOk.req {x m : Str} {p : Str → Prop} (h1 : m ∈ known) (h2 : qualifier x = some (packageOf m)) (h3 : x ≠ rawValue ∧ x ≠ newInt := by decide) :
    UsesOk [x] [.require m] p := by
  refine ⟨fun y hy q hq => ?_, fun m' hm => ?_⟩
  · rw [List.mem_singleton.1 hy, h2] at hq
    cases hq
    exact .inl ⟨m, by simp, rfl⟩
  · simp only [List.mem_singleton, Event.require.injEq] at hm
    subst hm
    exact ⟨h1, x, by simp, h2, h3⟩

/-- Names allowed without import in types. -/
def isRaw (x : Str) : Prop := x = rawValue

theorem resolve_noReq {c : GenCtx} {a : Str} {x : Option (Str × MTy)} {log : List Event}
    (h : resolveTypeReference c a = some (x, log)) : NoReq log := by
  rcases resolve_some h with ⟨r, t, _, rfl, _⟩ | ⟨_, rfl, _⟩
  · exact NoReq.nil
  · exact NoReq.error _

theorem specialCase_uses {r : Str} {t : MTy} {x : Option GoExpr} {log : List Event} (h : generateSpecialCase r t = some (x, log)) :
    (x = none ∧ log = []) ∨ ∃ e, x = some e ∧ UsesOk (exprIdents e) log isRaw := by
  unfold generateSpecialCase at h
  repeat' split at h
  all_goals simp only [bind_some, req_some, pure_some] at h
  · obtain ⟨_, l1, l2, rfl, ⟨rfl, rfl⟩, rfl⟩ := h
    refine .inr ⟨_, rfl, UsesOk.req (by decide) (by decide)⟩
  · obtain ⟨_, l1, l2, rfl, ⟨rfl, rfl⟩, rfl⟩ := h
    refine .inr ⟨_, rfl, UsesOk.req (by decide) (by decide)⟩
  · exact .inl h

theorem body_uses_aux (c : GenCtx) : (∀ t x log, generateTypeBody c t = some (x, log) → (∀ n ∈ tyNames t, '.' ∉ n) →
      UsesOk (exprIdents x.1) log isRaw) ∧
    (∀ l x log, generateFields c l = some (x, log) → (∀ n ∈ componentNames l, '.' ∉ n) → UsesOk (fieldIdents x) log isRaw) := by
  let P := fun t => ∀ x log, generateTypeBody c t = some (x, log) → (∀ n ∈ tyNames t, '.' ∉ n) → UsesOk (exprIdents x.1) log isRaw
  let Q := fun l => ∀ x log, generateFields c l = some (x, log) → (∀ n ∈ componentNames l, '.' ∉ n) → UsesOk (fieldIdents x) log isRaw
  have happ : ∀ a b : List GoField, fieldIdents (a ++ b) = fieldIdents a ++ fieldIdents b := by
    intro a b
    induction a with
    | nil => rfl
    | cons f a ih =>
      obtain ⟨n, t, g⟩ := f
      rw [List.cons_append, fieldIdents, fieldIdents, ih, List.append_assoc]
  have hseq : ∀ a b, Q a → Q b → P (.sequence a b) := by
    intro a b ha hb x log h hd
    rw [generateTypeBody] at h
    replace h := bind_some.1 h
    obtain ⟨f1, l1, l2, h1, h, rfl⟩ := h
    replace h := bind_some.1 h
    obtain ⟨f2, l3, l4, h2, h, rfl⟩ := h
    obtain ⟨rfl, rfl⟩ := pure_some.1 h
    rw [tyNames] at hd
    simp only [exprIdents, happ, List.append_nil]
    exact (ha _ _ h1 fun n hn => hd n (by simp [hn])).append (hb _ _ h2 fun n hn => hd n (by simp [hn]))
  have hset : ∀ a b, Q a → Q b → P (.set a b) := by
    intro a b ha hb x log h hd
    rw [generateTypeBody] at h
    replace h := bind_some.1 h
    obtain ⟨f1, l1, l2, h1, h, rfl⟩ := h
    replace h := bind_some.1 h
    obtain ⟨f2, l3, l4, h2, h, rfl⟩ := h
    obtain ⟨rfl, rfl⟩ := pure_some.1 h
    rw [tyNames] at hd
    simp only [exprIdents, happ, List.append_nil]
    exact (ha _ _ h1 fun n hn => hd n (by simp [hn])).append (hb _ _ h2 fun n hn => hd n (by simp [hn]))
  have hseqOf : ∀ t, P t → P (.sequenceOf t) := by
    intro t ih x log h hd
    rw [generateTypeBody] at h
    replace h := bind_some.1 h
    obtain ⟨f1, l1, l2, h1, h, rfl⟩ := h
    obtain ⟨rfl, rfl⟩ := pure_some.1 h
    rw [tyNames] at hd
    simp only [exprIdents, List.append_nil]
    exact ih _ _ h1 hd
  have hsetOf : ∀ t, P t → P (.setOf t) := by
    intro t ih x log h hd
    rw [generateTypeBody] at h
    replace h := bind_some.1 h
    obtain ⟨f1, l1, l2, h1, h, rfl⟩ := h
    obtain ⟨rfl, rfl⟩ := pure_some.1 h
    rw [tyNames] at hd
    simp only [exprIdents, List.append_nil]
    exact ih _ _ h1 hd
  have htag : ∀ g t k h, P t → P (.tagged g t k h) := by
    intro g t k hh ih x log h hd
    rw [generateTypeBody] at h
    rw [tyNames] at hd
    exact ih _ _ h hd
  have hcon : ∀ t x, P t → P (.constrained t x) := by
    intro t y ih x log h hd
    rw [generateTypeBody] at h
    rw [tyNames] at hd
    exact ih _ _ h hd
  have hcho : ∀ a e, (∀ n t, .mk n t ∈ a → P t) → P (.choice a e) := by
    intro a e ih x log h hd
    rw [generateTypeBody] at h
    replace h := bind_some.1 h
    obtain ⟨b, l1, l2, h1, h, rfl⟩ := h
    obtain ⟨_, _, hno⟩ := hasTagged_spec h1
    have := UsesOk.noReq (p := isRaw) hno
    rw [tyNames] at hd
    cases b with
    | true =>
      simp only [if_true] at h
      obtain ⟨rfl, rfl⟩ := pure_some.1 h
      have h2 : UsesOk [rawValue] [] isRaw :=
        ⟨fun y hy q hq => .inr (List.mem_singleton.1 hy), fun m hm => by simp at hm⟩
      exact this.append h2
    | false =>
      simp only [Bool.false_eq_true, if_false] at h
      refine this.append (b := exprIdents x.1) ?_
      match a, h, ih, hd with
      | [.mk n t], h, ih, hd =>
        rw [generateOnlyAlternative] at h
        exact ih n t (by simp) _ _ h fun n hn => hd n (by simp [alternativeNames, hn])
      | [], h, ih, hd =>
        rw [generateOnlyAlternative] at h
        · obtain ⟨rfl, rfl⟩ := pure_some.1 h
          exact UsesOk.nil
        · simp
      | _ :: _ :: _, h, ih, hd =>
        rw [generateOnlyAlternative] at h
        · obtain ⟨rfl, rfl⟩ := pure_some.1 h
          exact UsesOk.nil
        · simp
  have hsimple : ∀ t, simple t = true → P t := by
    intro t hs x log h hd
    cases t <;> simp [simple] at hs <;> rw [generateTypeBody] at h <;>
      try first
        | (obtain ⟨rfl, rfl⟩ := pure_some.1 h; exact UsesOk.plain (by decide))
        | (obtain ⟨rfl, rfl⟩ := pure_some.1 h; exact UsesOk.nil)
        | (simp only [bind_some, req_some, pure_some] at h
           obtain ⟨_, l1, l2, rfl, ⟨rfl, rfl⟩, rfl⟩ := h
           exact UsesOk.req (by decide) (by decide))
        | (simp only [bind_some, err_some, pure_some] at h
           obtain ⟨_, l1, l2, rfl, ⟨rfl, rfl⟩, rfl⟩ := h
           exact UsesOk.noReq (NoReq.error _))
    · split at h
      · obtain ⟨rfl, rfl⟩ := pure_some.1 h
        exact UsesOk.plain (by decide)
      · split at h
        · simp only [bind_some, req_some, err_some, pure_some] at h
          obtain ⟨_, l1, l2, rfl, ⟨rfl, rfl⟩, rfl⟩ := h
          exact UsesOk.req (by decide) (by decide)
        · simp only [bind_some, req_some, err_some, pure_some] at h
          obtain ⟨_, l1, l2, rfl, ⟨rfl, rfl⟩, rfl⟩ := h
          exact (UsesOk.noReq (NoReq.error _)).append (UsesOk.plain (x := c! "int64") (by decide))
    · rename_i a
      have hda : '.' ∉ goifyName c.u a := goify_dot (hd a (by simp [tyNames]))
      replace h := bind_some.1 h
      obtain ⟨y, l1, l2, h1, h, rfl⟩ := h
      have hno := UsesOk.noReq (p := isRaw) (resolve_noReq h1)
      refine hno.append (b := exprIdents x.1) ?_
      cases y with
      | none =>
        obtain ⟨rfl, rfl⟩ := pure_some.1 h
        exact UsesOk.plain hda
      | some p =>
        simp only at h
        replace h := bind_some.1 h
        obtain ⟨z, l3, l4, h2, h, rfl⟩ := h
        rcases specialCase_uses h2 with ⟨rfl, rfl⟩ | ⟨e, rfl, hu⟩
        · obtain ⟨rfl, rfl⟩ := pure_some.1 h
          exact UsesOk.plain hda
        · obtain ⟨rfl, rfl⟩ := pure_some.1 h
          simpa using hu
  have hnil : Q [] := by
    intro x log h _
    obtain ⟨rfl, rfl⟩ := pure_some.1 h
    exact UsesOk.nil
  have hnamed : ∀ n t o d r, P t → Q r → Q (.named (.mk n t) o d :: r) := by
    intro nm t o d r h1 h2 x log h hd
    rw [generateFields] at h
    replace h := bind_some.1 h
    obtain ⟨y, l1, l2, hy, h, rfl⟩ := h
    replace h := bind_some.1 h
    obtain ⟨tg, l3, l4, htg, h, rfl⟩ := h
    replace h := bind_some.1 h
    obtain ⟨fs, l5, l6, hfs, h, rfl⟩ := h
    obtain ⟨rfl, rfl⟩ := pure_some.1 h
    rw [componentNames] at hd
    rw [fieldIdents, List.append_nil]
    refine (h1 _ _ hy fun n hn => hd n (by simp [hn])).append ?_
    exact (UsesOk.noReq (tag_spec htg).2).append (h2 _ _ hfs fun n hn => hd n (by simp [hn]))
  have hof : ∀ t r, Q r → Q (.componentsOf t :: r) := by
    intro t r ih x log h hd
    rw [generateFields] at h
    replace h := bind_some.1 h
    obtain ⟨y, l1, l2, hy, h, rfl⟩ := h
    rw [err_some.1 hy]
    rw [componentNames] at hd
    · exact (UsesOk.noReq (NoReq.error _)).append (ih _ _ h hd)
    · simp
  have hnilc : ∀ r, Q r → Q (.nil :: r) := by
    intro r ih x log h hd
    rw [generateFields] at h
    rw [componentNames] at hd
    · exact ih _ _ h hd
    · simp
  exact ⟨induct hseq hset hseqOf hsetOf htag hcon hcho hsimple hnil hnamed hof hnilc,
    inductList hseq hset hseqOf hsetOf htag hcon hcho hsimple hnil hnamed hof hnilc⟩

theorem body_uses {c : GenCtx} {t : MTy} {x : GoExpr × Bool} {log : List Event} (h : generateTypeBody c t = some (x, log))
    (hd : ∀ n ∈ tyNames t, '.' ∉ n) : UsesOk (exprIdents x.1) log isRaw := (body_uses_aux c).1 t x log h hd

/-- Names allowed without import in declarations. -/
def isExempt (repr : Str) (x : Str) : Prop := x = rawValue ∨ (x = newInt ∧ repr = c! "big.Int")

theorem raw_exempt {repr : Str} (x : Str) (h : isRaw x) : isExempt repr x := .inl h

theorem number_uses (repr : Str) (n : Int) : UsesOk (exprIdents (numberToExpr n repr)) [] (isExempt repr) := by
  unfold numberToExpr
  split
  · rename_i h
    exact ⟨fun y hy q hq => .inr (.inr ⟨by simpa [exprIdents, newInt] using hy, h⟩), fun m hm => by simp at hm⟩
  · exact UsesOk.nil

theorem numbers_uses {c : GenCtx} {ref : Str} : ∀ {l : List NamedNumber} {x : List GoValueSpec} {log : List Event},
    namedNumberSpecs c ref l = some (x, log) → '.' ∉ ref → (∀ n ∈ numberNames l, '.' ∉ n) →
    UsesOk (x.flatMap fun s => exprIdents s.type ++ exprIdents s.value) log (isExempt c.integerRepr)
  | [], x, log, h, _, _ => by
    obtain ⟨rfl, rfl⟩ := pure_some.1 h
    exact UsesOk.nil
  | n :: l, x, log, h, hr, hd => by
    rw [namedNumberSpecs] at h
    replace h := bind_some.1 h
    obtain ⟨e, l1, l2, he, h, rfl⟩ := h
    replace h := bind_some.1 h
    obtain ⟨r, l3, l4, hrest, h, rfl⟩ := h
    obtain ⟨rfl, rfl⟩ := pure_some.1 h
    have ih := numbers_uses hrest hr (fun m hm => hd m (by rw [numberNames, List.flatMap_cons]; exact List.mem_append.2 (.inr hm)))
    rw [List.flatMap_cons, List.append_nil]
    refine UsesOk.append ?_ ih
    have h1 : UsesOk [goifyName c.u ref] [] (isExempt c.integerRepr) := UsesOk.plain (goify_dot hr)
    refine h1.append (l := []) ?_
    unfold namedNumberExpr at he
    split at he
    · obtain ⟨rfl, rfl⟩ := pure_some.1 he
      exact number_uses _ _
    · rename_i d hv
      have hdd : '.' ∉ valueRefToIdent c.u d.valueName := by
        have := goify_dot (u := c.u) (hd d.valueName (by simp [numberNames, hv]))
        unfold valueRefToIdent
        simp [this]
      split at he
      · simp only [bind_some, err_some, pure_some] at he
        obtain ⟨_, l1, l2, rfl, ⟨rfl, rfl⟩, rfl⟩ := he
        exact (UsesOk.noReq (NoReq.error _)).append (UsesOk.plain hdd)
      · obtain ⟨rfl, rfl⟩ := pure_some.1 he
        exact UsesOk.plain hdd
    · obtain ⟨rfl, rfl⟩ := pure_some.1 he
      exact UsesOk.nil

theorem namedNumbers_core {t : MTy} {l : List NamedNumber} (h : removeWrapperTypes t = .integer l) : namedNumbers t = l := by
  have key : ∀ {t c : MTy}, Core t c → c = .integer l → namedNumbers t = l := by
    intro t c hc
    induction hc with
    | tagged g t c k h _ ih => intro e; rw [namedNumbers]; exact ih e
    | constrained t c x _ ih => intro e; rw [namedNumbers]; exact ih e
    | done t _ _ => intro e; rw [e, namedNumbers]
  exact key (core_iff.2 h) rfl

theorem associated_uses {c : GenCtx} {ref : Str} {t : MTy} {x : Option GoDecl} {log : List Event}
    (h : generateAssociatedValues c ref t = some (x, log)) (hd : ∀ n ∈ assignmentNames (.type ref t), '.' ∉ n) :
    UsesOk (x.toList.flatMap declIdents) log (isExempt c.integerRepr) := by
  unfold generateAssociatedValues at h
  split at h
  · rename_i l hl
    split at h
    · obtain ⟨rfl, rfl⟩ := pure_some.1 h
      exact UsesOk.nil
    · replace h := bind_some.1 h
      obtain ⟨s, l1, l2, hs, h, rfl⟩ := h
      obtain ⟨rfl, rfl⟩ := pure_some.1 h
      have := numbers_uses hs (hd ref (by simp [assignmentNames])) (fun n hn => hd n (by simp [assignmentNames, namedNumbers_core hl, hn]))
      simpa [declIdents] using this
  · obtain ⟨rfl, rfl⟩ := pure_some.1 h
    exact UsesOk.nil

theorem decls_uses {c : GenCtx} : ∀ {l : List MAssignment} {x : List GoDecl} {log : List Event}, generateDeclarations c l = some (x, log) →
    Undotted l → UsesOk (x.flatMap declIdents) log (isExempt c.integerRepr)
  | [], x, log, h, _ => by
    obtain ⟨rfl, rfl⟩ := pure_some.1 h
    exact UsesOk.nil
  | .type r t :: l, x, log, h, hd => by
    rw [generateDeclarations] at h
    replace h := bind_some.1 h
    obtain ⟨d, l1, l2, hdecl, h, rfl⟩ := h
    replace h := bind_some.1 h
    obtain ⟨v, l3, l4, hv, h, rfl⟩ := h
    replace h := bind_some.1 h
    obtain ⟨ds, l5, l6, hds, h, rfl⟩ := h
    obtain ⟨rfl, rfl⟩ := pure_some.1 h
    have hd1 := hd (.type r t) (by simp)
    have ih := decls_uses hds (fun a ha => hd a (by simp [ha]))
    rw [List.flatMap_cons, List.flatMap_append, List.append_nil]
    refine UsesOk.append ?_ ((associated_uses hv hd1).append ih)
    obtain ⟨e, s, hb, rfl⟩ := typeDecl_inv hdecl
    have hu := (body_uses hb fun n hn => hd1 n (by simp [assignmentNames, hn])).mono (raw_exempt (repr := c.integerRepr))
    cases s with
    | false => simpa [declIdents] using hu
    | true =>
      have hp : UsesOk [goifyName c.u r ++ c! "SET"] [] (isExempt c.integerRepr) := by
        refine UsesOk.plain ?_
        have := goify_dot (u := c.u) (hd1 r (by simp [assignmentNames]))
        simp [this]
      simpa [declIdents, exprIdents] using hu.append hp
  | .value r t v :: l, x, log, h, hd => by
    rw [generateDeclarations] at h
    replace h := bind_some.1 h
    obtain ⟨d, l1, l2, hdecl, h, rfl⟩ := h
    replace h := bind_some.1 h
    obtain ⟨ds, l5, l6, hds, h, rfl⟩ := h
    obtain ⟨rfl, rfl⟩ := pure_some.1 h
    have hd1 := hd (.value r t v) (by simp)
    have ih := decls_uses hds (fun a ha => hd a (by simp [ha]))
    rw [List.flatMap_append, List.append_nil]
    refine UsesOk.append ?_ ih
    rcases valueAssignment_inv hdecl with ⟨_, rfl, rfl⟩ | ⟨_, e, s, y, hb, rfl, hv⟩
    · exact UsesOk.nil
    · have hu := (body_uses hb fun n hn => hd1 n (by simp [assignmentNames, hn])).mono (raw_exempt (repr := c.integerRepr))
      have hy : UsesOk (exprIdents y) [] (isExempt c.integerRepr) := by
        rcases hv with ⟨n, _, rfl⟩ | ⟨b, _, rfl⟩ | ⟨z, _, rfl⟩
        · exact number_uses _ _
        · exact UsesOk.nil
        · exact UsesOk.nil
      simpa [declIdents] using hu.append hy
  | .nil :: l, x, log, h, hd => by
    rw [generateDeclarations] at h
    exact decls_uses h (fun a ha => hd a (by simp [ha]))

theorem requiredFrom_mem : ∀ (log : List Event) (acc : List Str) (m : Str), m ∈ requiredFrom acc log ↔ m ∈ acc ∨ Event.require m ∈ log
  | [], acc, m => by simp [requiredFrom]
  | .error e :: l, acc, m => by
    rw [requiredFrom, requiredFrom_mem l]
    simp
  | .require x :: l, acc, m => by
    rw [requiredFrom, requiredFrom_mem l]
    split
    · rename_i h
      have hx : x ∈ acc := by simpa using h
      simp only [List.mem_cons, Event.require.injEq]
      constructor
      · rintro (h | h)
        · exact .inl h
        · exact .inr (.inr h)
      · rintro (h | h | h)
        · exact .inl h
        · exact .inl (h ▸ hx)
        · exact .inr h
    · simp [or_assoc]

theorem requiredFrom_nodup : ∀ (log : List Event) (acc : List Str), acc.Nodup → (requiredFrom acc log).Nodup
  | [], _, h => h
  | .error _ :: l, acc, h => by
    rw [requiredFrom]
    exact requiredFrom_nodup l acc h
  | .require x :: l, acc, h => by
    rw [requiredFrom]
    refine requiredFrom_nodup l _ ?_
    split
    · exact h
    · rename_i hx
      rw [List.nodup_append]
      refine ⟨h, by simp, ?_⟩
      intro a ha b hb hab
      simp only [List.mem_singleton] at hb
      subst hab hb
      exact hx (by simpa using ha)

/-! ### Declarations -/

theorem intExpr_number (repr : Str) (n : Int) : IntExpr repr n (numberToExpr n repr) := by
  refine ⟨intStr n, signed_intStr n, leadingZero_intStr n, ?_⟩
  unfold numberToExpr IntegerReprBigInt
  rfl

theorem numbers_shape {c : GenCtx} {ref : Str} : ∀ {l : List NamedNumber} {x : List GoValueSpec} {log : List Event},
    namedNumberSpecs c ref l = some (x, log) → List.Forall₂ (NumberVar c.u c.integerRepr (goifyName c.u ref)) l x
  | [], x, log, h => by
    obtain ⟨rfl, rfl⟩ := pure_some.1 h
    exact .nil
  | n :: l, x, log, h => by
    rw [namedNumberSpecs] at h
    replace h := bind_some.1 h
    obtain ⟨e, l1, l2, he, h, rfl⟩ := h
    replace h := bind_some.1 h
    obtain ⟨r, l3, l4, hrest, h, rfl⟩ := h
    obtain ⟨rfl, rfl⟩ := pure_some.1 h
    refine .cons ⟨rfl, rfl, ?_, ?_, ?_⟩ (numbers_shape hrest)
    · intro k hk
      rw [hk, namedNumberExpr] at he
      rw [(pure_some.1 he).1]
      exact intExpr_number _ _
    · intro d hk
      rw [hk, namedNumberExpr] at he
      split at he
      · simp only [bind_some, err_some, pure_some] at he
        obtain ⟨_, l1, l2, rfl, ⟨rfl, rfl⟩, rfl⟩ := he
        rfl
      · rw [(pure_some.1 he).1]
        rfl
    · intro hk
      rw [hk, namedNumberExpr] at he
      exact (pure_some.1 he).1

theorem associated_shape {c : GenCtx} {ref : Str} {t : MTy} {x : Option GoDecl} {log : List Event}
    (h : generateAssociatedValues c ref t = some (x, log)) : NumberVars c.u c.integerRepr (goifyName c.u ref) t x.toList := by
  unfold generateAssociatedValues at h
  split at h
  · rename_i l hl
    split at h
    · rename_i he
      obtain ⟨rfl, rfl⟩ := pure_some.1 h
      refine .none fun nums hc => ?_
      rw [core_iff, hl] at hc
      cases hc
      simpa using he
    · rename_i he
      replace h := bind_some.1 h
      obtain ⟨s, l1, l2, hs, h, rfl⟩ := h
      obtain ⟨rfl, rfl⟩ := pure_some.1 h
      exact .vars l s (core_iff.2 hl) (by simpa using he) (numbers_shape hs)
  · rename_i hl
    obtain ⟨rfl, rfl⟩ := pure_some.1 h
    refine .none fun nums hc => ?_
    exact absurd (core_iff.1 hc) (hl nums)

end Asn1go.CG
