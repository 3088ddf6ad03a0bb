import Verif.Spec.Codegen
import Mathlib.Data.List.Perm.Subperm

/-! Lemmas about the code generator: sequencing, wrappers, and following references. -/

namespace Asn1go.CG

open Spec

/-! ### Sequencing -/

theorem bind_some {α β : Type} {x : Gen α} {f : α → Gen β} {b : β} {l : List Event} :
    (x >>= f) = some (b, l) ↔ ∃ a l1 l2, x = some (a, l1) ∧ f a = some (b, l2) ∧ l = l1 ++ l2 := by
  show Gen.bind x f = _ ↔ _
  unfold Gen.bind
  constructor
  · intro h
    cases x with
    | none => cases h
    | some p =>
      obtain ⟨a, l1⟩ := p
      simp only at h
      cases hf : f a with
      | none => rw [hf] at h; cases h
      | some q =>
        obtain ⟨b', l2⟩ := q
        rw [hf] at h
        cases h
        exact ⟨a, l1, l2, rfl, hf, rfl⟩
  · rintro ⟨a, l1, l2, rfl, h2, rfl⟩
    simp only [h2]
    rfl

theorem bind_none {α β : Type} {x : Gen α} {f : α → Gen β} :
    (x >>= f) = none ↔ x = none ∨ ∃ a l, x = some (a, l) ∧ f a = none := by
  show Gen.bind x f = _ ↔ _
  unfold Gen.bind
  constructor
  · intro h
    cases x with
    | none => exact .inl rfl
    | some p =>
      obtain ⟨a, l1⟩ := p
      simp only at h
      cases hf : f a with
      | none => exact .inr ⟨a, l1, rfl, hf⟩
      | some q => rw [hf] at h; cases h
  · rintro (rfl | ⟨a, l, rfl, hf⟩)
    · rfl
    · simp only [hf]
      rfl

theorem pure_some {α : Type} {a b : α} {l : List Event} : (pure a : Gen α) = some (b, l) ↔ b = a ∧ l = [] := by
  constructor
  · intro h; cases h; exact ⟨rfl, rfl⟩
  · rintro ⟨rfl, rfl⟩; rfl

theorem pure_none {α : Type} {a : α} : (pure a : Gen α) = none ↔ False :=
  ⟨fun h => (by cases h), False.elim⟩

theorem err_some {e : GenErr} {x : Unit} {l : List Event} : appendError e = some (x, l) ↔ l = [.error e] := by
  constructor
  · intro h; cases h; rfl
  · rintro rfl; rfl

theorem req_some {m : Str} {x : Unit} {l : List Event} : requireModule m = some (x, l) ↔ l = [.require m] := by
  constructor
  · intro h; cases h; rfl
  · rintro rfl; rfl

theorem err_none {e : GenErr} : appendError e = none ↔ False :=
  ⟨fun h => (by cases h), False.elim⟩

theorem req_none {m : Str} : requireModule m = none ↔ False :=
  ⟨fun h => (by cases h), False.elim⟩

theorem errorsOf_append : ∀ a b : List Event, errorsOf (a ++ b) = errorsOf a ++ errorsOf b
  | [], _ => rfl
  | .error e :: a, b => by simp [errorsOf, errorsOf_append a b]
  | .require _ :: a, b => by simp [errorsOf, errorsOf_append a b]

/-! ### Induction over types -/

/-- Types without parts that the generator looks into. -/
def simple : MTy → Bool
  | .sequence _ _ => false
  | .set _ _ => false
  | .sequenceOf _ => false
  | .setOf _ => false
  | .tagged _ _ _ _ => false
  | .constrained _ _ => false
  | .choice _ _ => false
  | _ => true

section Induct

variable {P : MTy → Prop} {Q : List MComponent → Prop}
  (hseq : ∀ a b, Q a → Q b → P (.sequence a b)) (hset : ∀ a b, Q a → Q b → P (.set a b))
  (hseqOf : ∀ t, P t → P (.sequenceOf t)) (hsetOf : ∀ t, P t → P (.setOf t))
  (htag : ∀ g t k h, P t → P (.tagged g t k h)) (hcon : ∀ t x, P t → P (.constrained t x))
  (hcho : ∀ a e, (∀ n t, .mk n t ∈ a → P t) → P (.choice a e))
  (hsimple : ∀ t, simple t = true → P t)
  (hnil : Q []) (hnamed : ∀ n t o d r, P t → Q r → Q (.named (.mk n t) o d :: r))
  (hof : ∀ t r, Q r → Q (.componentsOf t :: r)) (hnilc : ∀ r, Q r → Q (.nil :: r))

include hseq hset hseqOf hsetOf htag hcon hcho hsimple hnil hnamed hof hnilc

mutual

theorem induct : ∀ t : MTy, P t
  | .sequence a b => hseq a b (inductList a) (inductList b)
  | .set a b => hset a b (inductList a) (inductList b)
  | .sequenceOf t => hseqOf t (induct t)
  | .setOf t => hsetOf t (induct t)
  | .tagged g t k h => htag g t k h (induct t)
  | .constrained t x => hcon t x (induct t)
  | .choice a e => hcho a e (inductAlts a)
  | .nil => hsimple _ rfl
  | .null => hsimple _ rfl
  | .objectIdentifier => hsimple _ rfl
  | .integer _ => hsimple _ rfl
  | .enumerated _ _ => hsimple _ rfl
  | .real => hsimple _ rfl
  | .boolean => hsimple _ rfl
  | .restrictedString _ => hsimple _ rfl
  | .characterString => hsimple _ rfl
  | .octetString => hsimple _ rfl
  | .any _ => hsimple _ rfl
  | .bitString _ => hsimple _ rfl
  | .ref _ => hsimple _ rfl
  | .named _ => hsimple _ rfl

theorem inductList : ∀ l : List MComponent, Q l
  | [] => hnil
  | .named (.mk n t) o d :: r => hnamed n t o d r (induct t) (inductList r)
  | .componentsOf t :: r => hof t r (inductList r)
  | .nil :: r => hnilc r (inductList r)

theorem inductAlts : ∀ (l : List MNamed) (n : Str) (t : MTy), .mk n t ∈ l → P t
  | [], _, _, h => absurd h (by simp)
  | .mk n' t' :: r, n, t, h => by
    have h1 := induct t'
    have h2 := inductAlts r
    rcases List.mem_cons.1 h with h | h
    · cases h; exact h1
    · exact h2 n t h

end

end Induct

/-! ### Wrappers and assignments -/

theorem core_total : ∀ t : MTy, Core t (removeWrapperTypes t) := by
  refine induct (Q := fun _ => True) ?_ ?_ ?_ ?_ ?_ ?_ ?_ ?_ ?_ ?_ ?_ ?_ <;> try trivial
  all_goals try (intros; exact .done _ (by simp) (by simp))
  · intro g t k h ih; exact .tagged _ _ _ _ _ ih
  · intro t x ih; exact .constrained _ _ _ ih
  · intro t h
    cases t <;> simp [simple] at h <;> exact .done _ (by simp) (by simp)
  · intros; trivial
  · intros; trivial
  · intros; trivial

/-- Induction over tags and constraints. -/
theorem wrapInduct {P : MTy → Prop} (htag : ∀ g t k h, P t → P (.tagged g t k h)) (hcon : ∀ t x, P t → P (.constrained t x))
    (hdone : ∀ t, (∀ g t' k h, t ≠ .tagged g t' k h) → (∀ t' x, t ≠ .constrained t' x) → P t) (t : MTy) : P t := by
  have h := core_total t
  generalize removeWrapperTypes t = c at h
  induction h with
  | tagged g t c k h _ ih => exact htag g t k h ih
  | constrained t c x _ ih => exact hcon t x ih
  | done t h1 h2 => exact hdone t h1 h2

theorem core_unique {t c : MTy} (h : Core t c) : c = removeWrapperTypes t := by
  induction h with
  | tagged g t c k h _ ih => rw [ih, removeWrapperTypes]
  | constrained t c x _ ih => rw [ih, removeWrapperTypes]
  | done t h1 h2 =>
    cases t <;> first | rfl | exact absurd rfl (h1 _ _ _ _) | exact absurd rfl (h2 _ _)

theorem core_iff {t c : MTy} : Core t c ↔ removeWrapperTypes t = c :=
  ⟨fun h => (core_unique h).symm, fun h => h ▸ core_total t⟩

theorem assignmentGet_eq (name : Str) : ∀ l : List MAssignment, assignmentGet l name = l.find? (fun x => x.name == name)
  | [] => rfl
  | a :: l => by
    rw [assignmentGet, List.find?_cons, assignmentGet_eq name l]
    cases a.name == name <;> rfl

theorem getType_some {l : List MAssignment} {name r : Str} {t : MTy} :
    assignmentGetType l name = some (r, t) ↔ r = name ∧ Assigned l name t := by
  unfold assignmentGetType Assigned
  rw [assignmentGet_eq]
  constructor
  · intro h
    cases hf : l.find? (fun x => x.name == name) with
    | none => rw [hf] at h; cases h
    | some a =>
      rw [hf] at h
      have hn := List.find?_some hf
      cases a with
      | type r' t' =>
        simp only [Option.some.injEq, Prod.mk.injEq] at h
        obtain ⟨rfl, rfl⟩ := h
        have : r' = name := by simpa [Assignment.name] using hn
        subst this
        exact ⟨rfl, rfl⟩
      | _ => simp at h
  · rintro ⟨rfl, h⟩
    rw [h]

theorem getType_none {l : List MAssignment} {name : Str} :
    assignmentGetType l name = none ↔ ∀ t, ¬ Assigned l name t := by
  constructor
  · intro h t ht
    rw [getType_some.2 ⟨rfl, ht⟩] at h
    cases h
  · intro h
    cases hg : assignmentGetType l name with
    | none => rfl
    | some p =>
      obtain ⟨r, t⟩ := p
      exact absurd (getType_some.1 hg).2 (h t)

theorem assigned_unique {l : List MAssignment} {a : Str} {t t' : MTy} (h : Assigned l a t) (h' : Assigned l a t') : t = t' := by
  have := h.symm.trans h'
  simpa using this

theorem alias_unique {l : List MAssignment} {a b b' : Str} (h : Alias l a b) (h' : Alias l a b') : b = b' := by
  obtain ⟨t, h1, h2⟩ := h
  obtain ⟨t', h1', h2'⟩ := h'
  cases assigned_unique h1 h1'
  have := (core_iff.1 h2).symm.trans (core_iff.1 h2')
  simpa using this

/-! ### Following references -/

theorem unwrap_sound {l : List MAssignment} : ∀ {fuel : Nat} {a r : Str} {t : MTy}, unwrapToLeafType l fuel a = some (r, t) →
    Leaf l a r t
  | 0, _, _, _, h => by cases h
  | fuel + 1, a, r, t, h => by
    rw [unwrapToLeafType] at h
    cases hg : assignmentGetType l a with
    | none =>
      rw [hg] at h
      simp only [Option.some.injEq, Prod.mk.injEq] at h
      obtain ⟨rfl, rfl⟩ := h
      exact .unassigned _ (getType_none.1 hg)
    | some p =>
      obtain ⟨r', t'⟩ := p
      rw [hg] at h
      obtain ⟨rfl, ha⟩ := getType_some.1 hg
      simp only at h
      have hc := core_total t'
      cases hw : removeWrapperTypes t' with
      | ref b =>
        rw [hw] at h hc
        exact .alias _ b _ _ ⟨t', ha, hc⟩ (unwrap_sound h)
      | _ =>
        rw [hw] at h hc
        simp only [Option.some.injEq, Prod.mk.injEq] at h
        obtain ⟨rfl, rfl⟩ := h
        exact .assigned _ _ _ ha hc (by simp)

theorem unwrap_mono {l : List MAssignment} : ∀ {fuel fuel' : Nat} {a : Str} {x : Str × MTy}, fuel ≤ fuel' →
    unwrapToLeafType l fuel a = some x → unwrapToLeafType l fuel' a = some x
  | 0, _, _, _, _, h => by cases h
  | _ + 1, 0, _, _, h, _ => by omega
  | fuel + 1, fuel' + 1, a, x, hle, h => by
    rw [unwrapToLeafType] at h ⊢
    cases hg : assignmentGetType l a with
    | none => rw [hg] at h; exact h
    | some p =>
      obtain ⟨r', t'⟩ := p
      rw [hg] at h
      simp only at h ⊢
      cases hw : removeWrapperTypes t' with
      | ref b =>
        rw [hw] at h
        exact unwrap_mono (Nat.le_of_succ_le_succ hle) h
      | _ => rw [hw] at h; exact h

/-- One step of following an alias. -/
theorem unwrap_alias {l : List MAssignment} {a b : Str} (h : Alias l a b) (fuel : Nat) :
    unwrapToLeafType l (fuel + 1) a = unwrapToLeafType l fuel b := by
  obtain ⟨t, h1, h2⟩ := h
  rw [unwrapToLeafType, getType_some.2 ⟨rfl, h1⟩]
  simp only [core_iff.1 h2]

theorem unwrap_complete {l : List MAssignment} {a r : Str} {t : MTy} (h : Leaf l a r t) :
    ∃ fuel, unwrapToLeafType l fuel a = some (r, t) := by
  induction h with
  | «alias» a b r t ha _ ih =>
    obtain ⟨fuel, hf⟩ := ih
    exact ⟨fuel + 1, by rw [unwrap_alias ha, hf]⟩
  | assigned a t c ha hc hn =>
    refine ⟨1, ?_⟩
    rw [unwrapToLeafType, getType_some.2 ⟨rfl, ha⟩]
    simp only [core_iff.1 hc]
  | unassigned a h => exact ⟨1, by rw [unwrapToLeafType, getType_none.2 h]⟩

theorem leaf_unique {l : List MAssignment} {a r r' : Str} {t t' : MTy} (h : Leaf l a r t) (h' : Leaf l a r' t') : r = r' ∧ t = t' := by
  obtain ⟨f, hf⟩ := unwrap_complete h
  obtain ⟨f', hf'⟩ := unwrap_complete h'
  have h1 := unwrap_mono (Nat.le_max_left f f') hf
  have h2 := unwrap_mono (Nat.le_max_right f f') hf'
  simpa using h1.symm.trans h2

/-- If `n` steps along aliases are possible from `a`, these are through `n` different assigned names, unless `a` reaches a
name that is an alias of itself. -/
theorem unwrap_none_chain {l : List MAssignment} (hac : Acyclic l) : ∀ (n : Nat) (a : Str), unwrapToLeafType l n a = none →
    ∃ s : List Str, s.length = n ∧ s.Nodup ∧ (∀ x ∈ s, x ∈ l.map Assignment.name) ∧ (∀ x ∈ s, x = a ∨ Reaches l a x)
  | 0, a, _ => ⟨[], rfl, .nil, by simp, by simp⟩
  | n + 1, a, h => by
    rw [unwrapToLeafType] at h
    cases hg : assignmentGetType l a with
    | none => rw [hg] at h; cases h
    | some p =>
      obtain ⟨r', t'⟩ := p
      rw [hg] at h
      obtain ⟨rfl, ha⟩ := getType_some.1 hg
      simp only at h
      have hc := core_total t'
      cases hw : removeWrapperTypes t' with
      | ref b =>
        rw [hw] at h hc
        have hal : Alias l r' b := ⟨t', ha, hc⟩
        obtain ⟨s, h1, h2, h3, h4⟩ := unwrap_none_chain hac n b h
        have hr : ∀ x ∈ s, Reaches l r' x := by
          intro x hx
          rcases h4 x hx with rfl | hx
          · exact .one _ _ hal
          · exact .step _ _ _ hal hx
        refine ⟨r' :: s, by simp [h1], List.nodup_cons.2 ⟨fun hm => hac r' (hr r' hm), h2⟩, ?_, ?_⟩
        · intro x hx
          rcases List.mem_cons.1 hx with rfl | hx
          · exact List.mem_map.2 ⟨_, List.mem_of_find?_eq_some ha, rfl⟩
          · exact h3 x hx
        · intro x hx
          rcases List.mem_cons.1 hx with rfl | hx
          · exact .inl rfl
          · exact .inr (hr x hx)
      | _ => rw [hw] at h; simp at h

/-- Enough fuel if there are no cycles. -/
theorem unwrap_total {l : List MAssignment} (hac : Acyclic l) (a : Str) {fuel : Nat} (hf : l.length < fuel) :
    ∃ x, unwrapToLeafType l fuel a = some x := by
  cases h : unwrapToLeafType l fuel a with
  | some x => exact ⟨x, rfl⟩
  | none =>
    obtain ⟨s, h1, h2, h3, _⟩ := unwrap_none_chain hac fuel a h
    have := (List.subperm_of_subset h2 h3).length_le
    simp only [List.length_map] at this
    omega

/-- A name on a cycle is never resolved. -/
theorem unwrap_cycle {l : List MAssignment} (P : Str → Prop) (hP : ∀ a, P a → ∃ b, Alias l a b ∧ P b) :
    ∀ (fuel : Nat) (a : Str), P a → unwrapToLeafType l fuel a = none
  | 0, _, _ => rfl
  | fuel + 1, a, h => by
    obtain ⟨b, hb, hPb⟩ := hP a h
    rw [unwrap_alias hb, unwrap_cycle P hP fuel b hPb]

theorem isNilTy_iff (t : MTy) : isNilTy t = true ↔ t = .nil := by
  cases t <;> simp [isNilTy]

theorem useful_iff (r : Str) : isNilTy (lookupUsefulType r) = true ↔ r ≠ GeneralizedTimeName := by
  unfold lookupUsefulType
  split <;> simp [isNilTy, *]

/-- What `resolveTypeReference` returns. -/
theorem resolve_some {c : GenCtx} {a : Str} {x : Option (Str × MTy)} {log : List Event}
    (h : resolveTypeReference c a = some (x, log)) :
    (∃ r t, x = some (r, t) ∧ log = [] ∧ Resolves c.assignments a r t) ∨
    (x = none ∧ log = [.error (.unresolved a)] ∧ ∃ r, Leaf c.assignments a r .nil ∧ r ≠ GeneralizedTimeName) := by
  unfold resolveTypeReference at h
  cases hu : unwrapToLeafType c.assignments c.fuel a with
  | none => rw [hu] at h; cases h
  | some p =>
    obtain ⟨r, t⟩ := p
    rw [hu] at h
    have hl := unwrap_sound hu
    simp only at h
    split at h
    · rename_i hn
      obtain ⟨rfl, rfl⟩ := pure_some.1 h
      refine .inl ⟨r, t, rfl, rfl, .assigned _ _ _ hl ?_⟩
      intro ht
      rw [(isNilTy_iff t).2 ht] at hn
      cases hn
    · rename_i hn
      have ht : t = .nil := (isNilTy_iff t).1 (by simpa using hn)
      subst ht
      split at h
      · rename_i hn'
        obtain ⟨rfl, rfl⟩ := pure_some.1 h
        have hr : r = GeneralizedTimeName := by
          refine Classical.byContradiction fun hr => ?_
          rw [(useful_iff r).2 hr] at hn'
          cases hn'
        subst hr
        exact .inl ⟨_, _, rfl, rfl, .generalizedTime _ hl⟩
      · rename_i hn'
        have hr : r ≠ GeneralizedTimeName := (useful_iff r).1 (by simpa using hn')
        obtain ⟨_, l1, l2, h1, h2, rfl⟩ := bind_some.1 h
        obtain ⟨rfl, rfl⟩ := pure_some.1 h2
        rw [err_some.1 h1]
        exact .inr ⟨rfl, rfl, r, hl, hr⟩

theorem resolves_unique {l : List MAssignment} {a r r' : Str} {t t' : MTy} (h : Resolves l a r t) (h' : Resolves l a r' t') :
    r = r' ∧ t = t' := by
  cases h with
  | assigned _ _ h hn =>
    cases h' with
    | assigned _ _ h' hn' => exact leaf_unique h h'
    | generalizedTime h' =>
      obtain ⟨rfl, rfl⟩ := leaf_unique h h'
      exact absurd rfl hn
  | generalizedTime h =>
    cases h' with
    | assigned _ _ h' hn' =>
      obtain ⟨rfl, rfl⟩ := leaf_unique h h'
      exact absurd rfl hn'
    | generalizedTime h' => exact ⟨rfl, rfl⟩

theorem resolves_of_leaf {l : List MAssignment} {a r r' : Str} {t : MTy} (h : Leaf l a r .nil) (hr : r ≠ GeneralizedTimeName) :
    ¬ Resolves l a r' t := by
  intro h'
  cases h' with
  | assigned _ _ h' hn =>
    obtain ⟨rfl, rfl⟩ := leaf_unique h h'
    exact hn rfl
  | generalizedTime h' => exact hr (leaf_unique h h').1

theorem resolve_mono {c : GenCtx} {fuel fuel' : Nat} {a : Str} {x : Option (Str × MTy) × List Event} (hle : fuel ≤ fuel')
    (h : resolveTypeReference { c with fuel := fuel } a = some x) : resolveTypeReference { c with fuel := fuel' } a = some x := by
  unfold resolveTypeReference at h ⊢
  cases hu : unwrapToLeafType c.assignments fuel a with
  | none => rw [hu] at h; cases h
  | some p =>
    simp only [hu] at h
    simp only [unwrap_mono hle hu]
    exact h

end Asn1go.CG
