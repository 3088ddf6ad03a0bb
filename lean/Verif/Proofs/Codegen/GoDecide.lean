import Verif.Spec.GoCheck
import Verif.Proofs.RealFloat

/-! A program that checks the rules of Go of Verif/Spec/GoCheck.lean, and the proof that what it accepts obeys them. -/

namespace Asn1go.GoDecide

open Asn1go Spec Relation

/-- The identifiers used in the file. -/
def fileIdents (f : GoFile) : List Str := f.decls.flatMap declIdents

/-- The type declarations of the file. -/
def specs : List GoDecl → List GoTypeSpec
  | [] => []
  | .type l :: ds => l ++ specs ds
  | _ :: ds => specs ds

/-- The variables of the file. -/
def vars : List GoDecl → List GoValueSpec
  | [] => []
  | .var l :: ds => l ++ vars ds
  | _ :: ds => vars ds

theorem mem_fileIdents {f : GoFile} {x : Str} : x ∈ fileIdents f ↔ FileIdent f x := by
  simp [fileIdents, FileIdent, List.mem_flatMap]

theorem mem_imports {p : Str} : ∀ {ds : List GoDecl}, p ∈ importsOf ds ↔ GoDecl.imp p ∈ ds
  | [] => by simp [importsOf]
  | .imp q :: ds => by simp [importsOf, mem_imports (ds := ds)]
  | .type l :: ds => by simp [importsOf, mem_imports (ds := ds)]
  | .var l :: ds => by simp [importsOf, mem_imports (ds := ds)]

theorem mem_specs {s : GoTypeSpec} : ∀ {ds : List GoDecl}, s ∈ specs ds ↔ ∃ l, GoDecl.type l ∈ ds ∧ s ∈ l
  | [] => by simp [specs]
  | .imp q :: ds => by simp [specs, mem_specs (ds := ds)]
  | .type l :: ds => by
    simp only [specs, List.mem_append, mem_specs (ds := ds), List.mem_cons, GoDecl.type.injEq]
    constructor
    · rintro (h | ⟨k, h1, h2⟩)
      · exact ⟨l, .inl rfl, h⟩
      · exact ⟨k, .inr h1, h2⟩
    · rintro ⟨k, rfl | h1, h2⟩
      · exact .inl h2
      · exact .inr ⟨k, h1, h2⟩
  | .var l :: ds => by simp [specs, mem_specs (ds := ds)]

theorem mem_vars {s : GoValueSpec} : ∀ {ds : List GoDecl}, s ∈ vars ds ↔ ∃ l, GoDecl.var l ∈ ds ∧ s ∈ l
  | [] => by simp [vars]
  | .imp q :: ds => by simp [vars, mem_vars (ds := ds)]
  | .var l :: ds => by
    simp only [vars, List.mem_append, mem_vars (ds := ds), List.mem_cons, GoDecl.var.injEq]
    constructor
    · rintro (h | ⟨k, h1, h2⟩)
      · exact ⟨l, .inl rfl, h⟩
      · exact ⟨k, .inr h1, h2⟩
    · rintro ⟨k, rfl | h1, h2⟩
      · exact .inl h2
      · exact .inr ⟨k, h1, h2⟩
  | .type l :: ds => by simp [vars, mem_vars (ds := ds)]

/-! ### Names and packages -/

def namesOk (f : GoFile) : Bool :=
  (fileIdents f).all fun x => decide (x ∈ predeclared) || decide (x ∈ declared f.decls) || decide ('.' ∈ x)

def importedOk (f : GoFile) : Bool :=
  (fileIdents f).all fun x =>
    match qualifier x with
    | none => true
    | some q => (importsOf f.decls).any fun p => decide (packageOf p = q)

def usedOk (f : GoFile) : Bool :=
  (importsOf f.decls).all fun p => (fileIdents f).any fun x => decide (qualifier x = some (packageOf p))

/-! ### Fields -/

mutual

/-- The fields of all structs in the expression have different names. -/
def distinct : GoExpr → Bool
  | .array e => distinct e
  | .struct fs => decide (fs.map fieldName).Nodup && distinctFields fs
  | _ => true

/-- The same in the types of fields. -/
def distinctFields : List GoField → Bool
  | [] => true
  | .mk _ e _ :: fs => distinct e && distinctFields fs

end

theorem distinctFields_mem {n : Str} {e : GoExpr} {tag : Option Str} : ∀ {fs : List GoField}, distinctFields fs = true →
    GoField.mk n e tag ∈ fs → distinct e = true
  | [], _, h => by simp at h
  | .mk n' e' t' :: fs, h, hm => by
    rw [distinctFields, Bool.and_eq_true] at h
    rcases List.mem_cons.1 hm with hm | hm
    · cases hm; exact h.1
    · exact distinctFields_mem h.2 hm

theorem distinct_sound {e x : GoExpr} (hw : Within e x) : distinct e = true → ∀ fs, x = .struct fs → (fs.map fieldName).Nodup := by
  induction hw with
  | here e =>
    rintro h fs rfl
    rw [distinct, Bool.and_eq_true] at h
    exact of_decide_eq_true h.1
  | array e x _ ih => exact fun h => ih (by rwa [distinct] at h)
  | field n e x tag fs hm _ ih =>
    intro h
    rw [distinct, Bool.and_eq_true] at h
    exact ih (distinctFields_mem h.2 hm)

def fieldsOk (f : GoFile) : Bool := (specs f.decls).all (fun s => distinct s.type) && (vars f.decls).all (fun s => distinct s.type)

/-! ### Recursive types -/

/-- Takes away `n` times the edges to places without further edges; says whether none are left. -/
def strip : Nat → List (Str × Str) → Bool
  | _, [] => true
  | 0, _ => false
  | n + 1, E => strip n (E.filter fun e => E.any fun e' => decide (e'.1 = e.2))

theorem keep_cycle {R : Str → Str → Prop} {a b : Str} (h : TransGen R a b) : (∃ z, R b z) →
    TransGen (fun x y => R x y ∧ ∃ z, R y z) a b := by
  induction h with
  | single h => exact fun hz => .single ⟨h, hz⟩
  | tail _ h ih => exact fun hz => .tail (ih ⟨_, h⟩) ⟨h, hz⟩

theorem strip_sound : ∀ (n : Nat) (E : List (Str × Str)), strip n E = true → ∀ x, ¬ TransGen (fun a b => (a, b) ∈ E) x x := by
  have hnil : ∀ x : Str, ¬ TransGen (fun a b => (a, b) ∈ ([] : List (Str × Str))) x x := by
    intro x h
    obtain ⟨_, h, _⟩ := TransGen.head'_iff.1 h
    simp at h
  intro n
  induction n with
  | zero =>
    intro E h
    cases E with
    | nil => exact hnil
    | cons e E => simp [strip] at h
  | succ n ih =>
    intro E h x hx
    cases E with
    | nil => exact hnil x hx
    | cons e E =>
      rw [strip] at h
      · refine ih _ h x ((keep_cycle hx ?_).lift id ?_)
        · obtain ⟨z, hz, _⟩ := TransGen.head'_iff.1 hx
          exact ⟨z, hz⟩
        · rintro a b ⟨h1, z, h2⟩
          simp only [List.mem_filter, List.any_eq_true, decide_eq_true_eq]
          exact ⟨h1, _, h2, rfl⟩
      · simp

/-- The steps of `SizeStep`. -/
def sizeEdges (f : GoFile) : List (Str × Str) :=
  (specs f.decls).flatMap fun s => ((directIdents s.type).filter fun y => (specs f.decls).any fun s' => decide (s'.name = y)).map fun y => (s.name, y)

/-- The steps of `AliasStep`. -/
def aliasEdges (f : GoFile) : List (Str × Str) :=
  ((specs f.decls).filter fun s => s.alias).flatMap fun s =>
    ((exprIdents s.type).filter fun y => (specs f.decls).any fun s' => s'.alias && decide (s'.name = y)).map fun y => (s.name, y)

theorem sizeStep_mem {f : GoFile} {x y : Str} (h : SizeStep f x y) : (x, y) ∈ sizeEdges f := by
  obtain ⟨⟨s, h1, rfl, h2⟩, s', h3, rfl⟩ := h
  simp only [sizeEdges, List.mem_flatMap, List.mem_map, List.mem_filter, List.any_eq_true, decide_eq_true_eq]
  exact ⟨s, mem_specs.2 h1, _, ⟨h2, s', mem_specs.2 h3, rfl⟩, rfl⟩

theorem aliasStep_mem {f : GoFile} {x y : Str} (h : AliasStep f x y) : (x, y) ∈ aliasEdges f := by
  obtain ⟨⟨s, h1, rfl, ha, h2⟩, s', h3, rfl, ha'⟩ := h
  simp only [aliasEdges, List.mem_flatMap, List.mem_map, List.mem_filter, List.any_eq_true, decide_eq_true_eq, Bool.and_eq_true]
  exact ⟨s, ⟨mem_specs.2 h1, ha⟩, _, ⟨h2, s', mem_specs.2 h3, ha', rfl⟩, rfl⟩

def recursionOk (f : GoFile) : Bool :=
  strip (sizeEdges f).length (sizeEdges f) && strip (aliasEdges f).length (aliasEdges f)

/-! ### Initial values -/

/-- The type an expression is when `n` aliases are followed. -/
def resolve (f : GoFile) : Nat → GoExpr → GoExpr
  | n + 1, .ident x =>
    match (specs f.decls).find? fun s => s.alias && decide (s.name = x) with
    | some s => resolve f n s.type
    | none => .ident x
  | _, e => e

theorem resolve_sound (f : GoFile) : ∀ (n : Nat) (e : GoExpr), Denotes f e (resolve f n e) := by
  intro n
  induction n with
  | zero => intro e; cases e <;> exact .here _
  | succ n ih =>
    intro e
    cases e with
    | ident x =>
      rw [resolve]
      cases hs : (specs f.decls).find? fun s => s.alias && decide (s.name = x) with
      | none => exact .here _
      | some s =>
        have h1 := List.mem_of_find?_eq_some hs
        have h2 := List.find?_some hs
        simp only [Bool.and_eq_true, decide_eq_true_eq] at h2
        obtain ⟨nm, al, ty⟩ := s
        obtain ⟨h2, h3⟩ := h2
        simp only at h2 h3
        subst h2 h3
        exact .alias _ _ _ (mem_specs.1 h1) (ih ty)
    | _ => exact .here _

/-- A decimal literal. -/
def intText (s : Str) : Bool := (signed s).isSome && !leadingZero s

/-- A decimal literal for a number in the range of int64. -/
def smallText (s : Str) : Bool :=
  !leadingZero s && match signed s with
    | some n => decide (-9223372036854775808 ≤ n) && decide (n ≤ 9223372036854775807)
    | none => false

theorem intText_sound {s : Str} (h : intText s = true) : ∃ n, IntText s n := by
  simp only [intText, Bool.and_eq_true, Bool.not_eq_true'] at h
  obtain ⟨n, hn⟩ := Option.isSome_iff_exists.1 h.1
  exact ⟨n, hn, h.2⟩

theorem smallText_sound {s : Str} (h : smallText s = true) : ∃ n, IntText s n ∧ GoInt n := by
  simp only [smallText, Bool.and_eq_true, Bool.not_eq_true'] at h
  cases hs : signed s with
  | none => simp [hs] at h
  | some n =>
    simp only [hs, Bool.and_eq_true, decide_eq_true_eq] at h
    exact ⟨n, ⟨hs, h.1⟩, h.2⟩

/-- The real is a number for certain: the exponent is not too large. -/
def finite : GoReal → Bool
  | .lit i f e => decide (0 ≤ i) && decide (i < 2 ^ 63) && decide (0 ≤ f) && decide (f < 2 ^ 63) && decide (e ≤ 288)
  | .neg x => finite x
  | _ => false

theorem finite_sound {x : GoReal} : finite x = true → FiniteReal x := by
  induction x with
  | lit i f e =>
    intro h log
    simp only [finite, Bool.and_eq_true, decide_eq_true_eq] at h
    exact realFloat_finite log h.1.1.1.1 h.1.1.1.2 h.1.1.2 h.1.2 h.2
  | neg x ih =>
    intro h log
    obtain ⟨q, hq⟩ := ih (by rwa [finite] at h) log
    exact ⟨-q, by rw [GoReal.float, hq, F64.neg]⟩
  | posInf => simp [finite]
  | negInf => simp [finite]

/-- The expression is the type named. -/
def isName (e : GoExpr) (n : Str) : Bool :=
  match e with
  | .ident x => decide (x = n)
  | _ => false

/-- The expression is `*big.Int`. -/
def isBig : GoExpr → Bool
  | .star x => isName x (c! "big.Int")
  | _ => false

theorem isName_sound {e : GoExpr} {n : Str} (h : isName e n = true) : e = .ident n := by
  cases e <;> simp_all [isName]

theorem isBig_sound {e : GoExpr} (h : isBig e = true) : e = .star (.ident (c! "big.Int")) := by
  cases e with
  | star x => rw [isName_sound (e := x) (by rwa [isBig] at h)]
  | _ => simp [isBig] at h

/-- Both are the same name, or both `*big.Int`. -/
def sameType (a b : GoExpr) : Bool :=
  match a with
  | .ident n => isName b n
  | _ => isBig a && isBig b

theorem sameType_sound {a b : GoExpr} (h : sameType a b = true) : a = b := by
  cases a with
  | ident n => exact (isName_sound (by rwa [sameType] at h)).symm
  | _ =>
    simp only [sameType, Bool.and_eq_true] at h
    rw [isBig_sound h.1, isBig_sound h.2]

/-- The value can be assigned to the type, which is `t` when aliases are followed. -/
def assignable (f : GoFile) (n : Nat) (t : GoExpr) : GoExpr → Bool
  | .lit s =>
    (isName t (c! "int64") && smallText s) || (isName t (c! "float64") && intText s) ||
      (isName t (c! "bool") && (decide (s = c! "true") || decide (s = c! "false")))
  | .real x => isName t (c! "float64") && finite x
  | .call g (.lit s) => isBig t && decide (g = c! "big.NewInt") && smallText s
  | .ident x => (vars f.decls).any fun s => decide (s.name = x) && sameType t (resolve f n s.type)
  | _ => false

theorem assignable_sound {f : GoFile} {n : Nat} {t v : GoExpr} (h : assignable f n (resolve f n t) v = true) : Assignable f t v := by
  have hd := resolve_sound f n t
  cases v with
  | lit s =>
    simp only [assignable, Bool.or_eq_true, Bool.and_eq_true, decide_eq_true_eq] at h
    rcases h with (⟨h1, h2⟩ | ⟨h1, h2⟩) | ⟨h1, h2⟩
    · obtain ⟨k, h3, h4⟩ := smallText_sound h2
      exact .int64 _ _ k (isName_sound h1 ▸ hd) h3 h4
    · obtain ⟨k, h3⟩ := intText_sound h2
      exact .float64 _ _ k (isName_sound h1 ▸ hd) h3
    · exact .bool _ _ (isName_sound h1 ▸ hd) h2
  | real x =>
    simp only [assignable, Bool.and_eq_true] at h
    exact .real _ _ (isName_sound h.1 ▸ hd) (finite_sound h.2)
  | call g a =>
    cases a with
    | lit s =>
      simp only [assignable, Bool.and_eq_true, decide_eq_true_eq] at h
      obtain ⟨⟨h1, rfl⟩, h2⟩ := h
      obtain ⟨k, h3, h4⟩ := smallText_sound h2
      exact .big _ _ k (isBig_sound h1 ▸ hd) h3 h4
    | _ => simp [assignable] at h
  | ident x =>
    simp only [assignable, List.any_eq_true, Bool.and_eq_true, decide_eq_true_eq] at h
    obtain ⟨⟨nm, t', v⟩, h1, h2, h3⟩ := h
    simp only at h2 h3
    subst h2
    obtain ⟨l, h4, h5⟩ := mem_vars.1 h1
    exact .variable _ t' _ v _ l h4 h5 hd (sameType_sound h3 ▸ resolve_sound f n t')
  | _ => simp [assignable] at h

def typedOk (f : GoFile) : Bool :=
  (vars f.decls).all fun s => assignable f (specs f.decls).length (resolve f (specs f.decls).length s.type) s.value

/-! ### All rules -/

/-- The file obeys the rules. -/
def goCheck (f : GoFile) : Bool :=
  namesOk f && decide (declared f.decls).Nodup && importedOk f && decide (importsOf f.decls).Nodup && usedOk f && fieldsOk f && recursionOk f &&
    typedOk f

theorem goCheck_sound {f : GoFile} (h : goCheck f = true) : GoOk f := by
  simp only [goCheck, Bool.and_eq_true, decide_eq_true_eq] at h
  obtain ⟨⟨⟨⟨⟨⟨⟨h1, h2⟩, h3⟩, h4⟩, h5⟩, h6⟩, h7⟩, h8⟩ := h
  refine ⟨?_, h2, ?_, h4, ?_, ?_, ?_, ?_⟩
  · intro x hx
    have := List.all_eq_true.1 h1 x (mem_fileIdents.2 hx)
    simpa [or_assoc] using this
  · intro x q hx hq
    have := List.all_eq_true.1 h3 x (mem_fileIdents.2 hx)
    simp only [hq, List.any_eq_true, decide_eq_true_eq] at this
    obtain ⟨p, h1, h2⟩ := this
    exact ⟨p, mem_imports.1 h1, h2⟩
  · intro p hp
    have := List.all_eq_true.1 h5 p hp
    simp only [List.any_eq_true, decide_eq_true_eq] at this
    obtain ⟨x, h1, h2⟩ := this
    exact ⟨x, mem_fileIdents.1 h1, h2⟩
  · intro e fs he hw
    simp only [fieldsOk, Bool.and_eq_true] at h6
    refine distinct_sound hw ?_ fs rfl
    rcases he with ⟨l, s, h1, h2, rfl⟩ | ⟨l, s, h1, h2, rfl⟩
    · exact List.all_eq_true.1 h6.1 s (mem_specs.2 ⟨l, h1, h2⟩)
    · exact List.all_eq_true.1 h6.2 s (mem_vars.2 ⟨l, h1, h2⟩)
  · simp only [recursionOk, Bool.and_eq_true] at h7
    exact ⟨fun x hx => strip_sound _ _ h7.1 x (hx.lift id fun _ _ => sizeStep_mem),
      fun x hx => strip_sound _ _ h7.2 x (hx.lift id fun _ _ => aliasStep_mem)⟩
  · intro l s h1 h2
    exact assignable_sound (List.all_eq_true.1 h8 s (mem_vars.2 ⟨l, h1, h2⟩))

end Asn1go.GoDecide
