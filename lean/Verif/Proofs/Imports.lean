import Verif.Spec.Imports
import Mathlib.Data.List.Induction

/-! Lists of imports and the notation for them. -/

namespace Asn1go.Imports

open Asn1go Spec Spec.Notation

/-- Tells token codes apart. -/
local macro "tok" : tactic =>
  `(tactic| first
    | decide
    | (show Tok.TYPEORMODULEREFERENCE ≠ _; decide)
    | (show Tok.VALUEIDENTIFIER ≠ _; decide)
    | (show Tok.NUMBER ≠ _; decide))

/-! ### Lists with all identifiers but the last are notation -/

section
variable {R D : Type} (L : Links R D)

theorem symbols_text (y : Imported) (l : List Imported) :
    SymbolsText (y.token :: l.flatMap (fun y => [kw Tok.COMMA, y.token])) ((y :: l).map Imported.symbol) := by
  have one : ∀ y : Imported, SymbolText [y.token] y.symbol := by
    rintro (s | s)
    · exact .type s
    · exact .value s
  induction l using List.reverseRecOn with
  | nil => exact .one _ _ (one y)
  | append_singleton l z ih =>
    have := SymbolsText.snoc _ _ _ _ ih (one z)
    simpa using this

theorem numbers_text (x : Str × Nat) (l : List (Str × Nat)) :
    OidText L true (Identified.numbers x l).tokens ((x :: l).map (fun x => { id := x.2 })) := by
  have more : ∀ (l : List (Str × Nat)) (x : Str × Nat),
      OidComponentsText L ((x :: l).map (fun x => num x.1 x.2)) ((x :: l).map (fun x => { id := x.2 })) := by
    intro l
    induction l with
    | nil => intro x; exact .one _ _ (.element _ _ (.number _ _))
    | cons y l ih => intro x; exact .cons [num x.1 x.2] _ _ _ (.element _ _ (.number _ _)) (ih y)
  cases l with
  | nil => exact .one _ _ (.element _ _ (.number _ _))
  | cons y l => exact OidText.many (simple := true) [num x.1 x.2] _ _ _ (.number _ _) (more l y)

theorem from_text (c : Bool) (x : Import) (h : c = false ∨ x.identified ≠ .none) : FromText L true c x.tokens x.meaning := by
  obtain ⟨y, l, m, i⟩ := x
  have hs := symbols_text y l
  unfold Import.tokens
  rw [← List.cons_append]
  cases i with
  | none =>
    rcases h with rfl | h
    · exact .none _ _ _ hs
    · exact absurd rfl h
  | numbers x l => exact .oid _ _ _ _ _ _ hs (numbers_text L x l)
  | value v => exact .defined _ _ _ _ _ _ hs (.plain v)
  | ofModule m v => exact .defined _ _ _ _ _ _ hs (.ext m v)

theorem froms_text : ∀ (l : List Import) (c : Bool) (_ : l ≠ []) (_ : ∀ x ∈ l.dropLast, x.identified ≠ .none)
    (_ : c = false ∨ ∀ x ∈ l, x.identified ≠ .none), FromsText L true c (l.flatMap Import.tokens) (l.map Import.meaning) := by
  intro l
  induction l using List.reverseRecOn with
  | nil => intro c h; exact absurd rfl h
  | append_singleton l x ih =>
    intro c _ hd hc
    rw [List.dropLast_concat] at hd
    have hs := from_text L c x (hc.imp_right (fun h => h x (by simp)))
    rw [List.flatMap_append, List.flatMap_cons, List.flatMap_nil, List.append_nil, List.map_append]
    by_cases h0 : l = []
    · subst h0
      exact .one _ _ _ hs
    · exact .snoc _ _ _ _ _ (ih true h0 (fun x hx => hd x (List.dropLast_subset _ hx)) (.inr hd)) hs

end

/-! ### Notation has no module without identifier before symbols

`scan` looks for `FROM`, a name and then a name followed by a comma or `FROM`. -/

def IsName (t : Token) : Bool := t.1 == Tok.TYPEORMODULEREFERENCE || t.1 == Tok.VALUEIDENTIFIER

/-- States: elsewhere, after `FROM`, after `FROM M`, after `FROM M x`, found. -/
inductive S
  | no | from | module | name | found
  deriving DecidableEq

def S.next (q : S) (t : Token) : S :=
  match q with
  | .found => .found
  | .name => if t.1 == Tok.COMMA || t.1 == Tok.FROM then .found else .no
  | .from => .module
  | .module => if IsName t then .name else if t.1 == Tok.FROM then .from else .no
  | .no => if t.1 == Tok.FROM then .from else .no

def scan (q : S) (l : List Token) : S := l.foldl S.next q

theorem scan_append (q : S) (a b : List Token) : scan q (a ++ b) = scan (scan q a) b := List.foldl_append ..

theorem scan_found (l : List Token) : scan .found l = .found := by
  induction l with
  | nil => rfl
  | cons x l ih => exact ih

/-- A token that leads nowhere. -/
def Plain (t : Token) : Prop := t.1 ≠ Tok.FROM

theorem scan_plain : ∀ (l : List Token) (_ : ∀ t ∈ l, Plain t), scan .no l = .no := by
  intro l
  induction l with
  | nil => intro _; rfl
  | cons x l ih =>
    intro h
    have : S.next .no x = .no := by
      unfold S.next
      simp only [beq_iff_eq]
      rw [if_neg (h x (by simp))]
    change scan (S.next .no x) l = _
    rw [this, ih (fun t ht => h t (by simp [ht]))]

section
variable {R D : Type} {L : Links R D} {simple : Bool}

theorem symbol_scan {a : List Token} {x : Symbol} (q : S) (hq : q = .no ∨ q = .name) (h : SymbolText a x) : scan q a = .no := by
  rcases hq with rfl | rfl <;> cases h <;> rfl

theorem symbols_scan {a : List Token} {l : List Symbol} (q : S) (hq : q = .no ∨ q = .name) (h : SymbolsText a l) : scan q a = .no := by
  induction h with
  | one a x h => exact symbol_scan q hq h
  | snoc a b l x _ h ih =>
    rw [scan_append, ih]
    change scan .no b = _
    exact symbol_scan .no (.inl rfl) h

/-- Neither `FROM` nor `;`. -/
def Inner (t : Token) : Prop := t.1 ≠ Tok.FROM ∧ t.1 ≠ Tok.SEMICOLON

theorem defined_inner {a : List Token} {d : DefinedValue} (h : DefinedText a d) : ∀ t ∈ a, Inner t := by
  cases h <;> simp [Inner] <;> tok

theorem element_inner {a : List Token} {e : ObjectIdElement R} (h : OidElementText L a e) : ∀ t ∈ a, Inner t := by
  cases h with
  | number r n => simp [Inner]; tok
  | nameNumber s r n => simp [Inner]; tok
  | nameDefined s a d h =>
    intro t ht
    simp only [List.mem_cons, List.mem_append, List.not_mem_nil, or_false] at ht
    rcases ht with rfl | rfl | ht | rfl
    · exact ⟨by tok, by tok⟩
    · exact ⟨by tok, by tok⟩
    · exact defined_inner h t ht
    · exact ⟨by tok, by tok⟩

theorem component_inner {a : List Token} {e : ObjectIdElement R} (h : OidComponentText L a e) : ∀ t ∈ a, Inner t := by
  cases h with
  | element _ h => exact element_inner h
  | defined _ h => exact defined_inner h

theorem components_inner {a : List Token} {l : List (ObjectIdElement R)} (h : OidComponentsText L a l) : ∀ t ∈ a, Inner t := by
  induction h with
  | one a e h => exact component_inner h
  | cons a b e l h _ ih =>
    intro t ht
    rcases List.mem_append.1 ht with ht | ht
    · exact component_inner h t ht
    · exact ih t ht

theorem oid_inner {a : List Token} {l : List (ObjectIdElement R)} (h : OidText L simple a l) :
    ∃ b, a = kw Tok.OPEN_CURLY :: b ∧ ∀ t ∈ b, Inner t := by
  have hc : Inner (kw Tok.CLOSE_CURLY) := ⟨by tok, by tok⟩
  cases h with
  | one a e h =>
    refine ⟨_, rfl, fun t ht => ?_⟩
    rcases List.mem_append.1 ht with ht | ht
    · exact component_inner h t ht
    · rw [List.mem_singleton] at ht; subst ht; exact hc
  | many a b e l h h' =>
    refine ⟨_, rfl, fun t ht => ?_⟩
    rcases List.mem_append.1 ht with ht | ht
    · exact element_inner h t ht
    rcases List.mem_append.1 ht with ht | ht
    · exact components_inner h' t ht
    · rw [List.mem_singleton] at ht; subst ht; exact hc
  | head a b d l _ h h' =>
    refine ⟨_, rfl, fun t ht => ?_⟩
    rcases List.mem_append.1 ht with ht | ht
    · exact defined_inner h t ht
    rcases List.mem_append.1 ht with ht | ht
    · exact components_inner h' t ht
    · rw [List.mem_singleton] at ht; subst ht; exact hc

theorem from_scan {c : Bool} {a : List Token} {x : SymbolsFromModule R} (q : S) (hq : q = .no ∨ q = .name) (h : FromText L simple c a x) :
    scan q a = .no ∨ scan q a = .name ∨ (c = false ∧ scan q a = .module) := by
  cases h with
  | oid c a b l s o hs ho =>
    obtain ⟨b, rfl, hb⟩ := oid_inner ho
    rw [scan_append, symbols_scan q hq hs]
    exact .inl (scan_plain b (fun t ht => (hb t ht).1))
  | defined c a b l s d hs hd =>
    rw [scan_append, symbols_scan q hq hs]
    cases hd with
    | ext m v => exact .inl rfl
    | plain v => exact .inr (.inl rfl)
  | none a l s hs =>
    rw [scan_append, symbols_scan q hq hs]
    exact .inr (.inr ⟨rfl, rfl⟩)

theorem froms_scan {c : Bool} {a : List Token} {l : List (SymbolsFromModule R)} (h : FromsText L simple c a l) :
    scan .no a = .no ∨ scan .no a = .name ∨ (c = false ∧ scan .no a = .module) := by
  induction h with
  | one c a x h => exact from_scan .no (.inl rfl) h
  | snoc c a b l x _ h ih =>
    rw [scan_append]
    refine from_scan _ ?_ h
    rcases ih with h | h | h
    · exact .inl h
    · exact .inr h
    · simp at h

theorem symbol_inner {a : List Token} {x : Symbol} (h : SymbolText a x) : ∀ t ∈ a, Inner t := by
  cases h <;> simp [Inner] <;> tok

theorem symbols_inner {a : List Token} {l : List Symbol} (h : SymbolsText a l) : ∀ t ∈ a, Inner t := by
  induction h with
  | one a x h => exact symbol_inner h
  | snoc a b l x _ h ih =>
    intro t ht
    simp only [List.mem_cons, List.mem_append] at ht
    rcases ht with ht | rfl | ht
    · exact ih t ht
    · exact ⟨by tok, by tok⟩
    · exact symbol_inner h t ht

theorem from_semicolon {c : Bool} {a : List Token} {x : SymbolsFromModule R} (h : FromText L simple c a x) : ∀ t ∈ a, t.1 ≠ Tok.SEMICOLON := by
  intro t ht
  cases h with
  | oid c a b l s o hs ho =>
    obtain ⟨b, rfl, hb⟩ := oid_inner ho
    simp only [List.mem_cons, List.mem_append] at ht
    rcases ht with ht | rfl | rfl | rfl | ht
    · exact (symbols_inner hs t ht).2
    · tok
    · tok
    · tok
    · exact (hb t ht).2
  | defined c a b l s d hs hd =>
    simp only [List.mem_cons, List.mem_append] at ht
    rcases ht with ht | rfl | rfl | ht
    · exact (symbols_inner hs t ht).2
    · tok
    · tok
    · exact (defined_inner hd t ht).2
  | none a l s hs =>
    simp only [List.mem_cons, List.mem_append, List.not_mem_nil, or_false] at ht
    rcases ht with ht | rfl | rfl
    · exact (symbols_inner hs t ht).2
    · tok
    · tok

theorem froms_semicolon {c : Bool} {a : List Token} {l : List (SymbolsFromModule R)} (h : FromsText L simple c a l) :
    ∀ t ∈ a, t.1 ≠ Tok.SEMICOLON := by
  induction h with
  | one c a x h => exact from_semicolon h
  | snoc c a b l x _ h ih =>
    intro t ht
    rcases List.mem_append.1 ht with ht | ht
    · exact ih t ht
    · exact from_semicolon h t ht

end

/-! ### Lists of imports are found out -/

theorem import_semicolon (x : Import) : ∀ t ∈ x.tokens, t.1 ≠ Tok.SEMICOLON := by
  have tok : ∀ y : Imported, y.token.1 ≠ Tok.SEMICOLON := by rintro (s | s) <;> tok
  intro t ht
  obtain ⟨y, l, m, i⟩ := x
  simp only [Import.tokens, List.mem_cons, List.mem_append, List.mem_flatMap, List.not_mem_nil, or_false] at ht
  rcases ht with rfl | ⟨z, _, rfl | rfl⟩ | rfl | rfl | ht
  · exact tok y
  · tok
  · exact tok z
  · tok
  · tok
  · cases i with
    | none => simp [Identified.tokens] at ht
    | numbers x l =>
      simp only [Identified.tokens, List.mem_cons, List.mem_append, List.mem_map, List.not_mem_nil, or_false] at ht
      rcases ht with rfl | ⟨_, _, rfl⟩ | rfl <;> tok
    | value v => simp only [Identified.tokens, List.mem_cons, List.not_mem_nil, or_false] at ht; subst ht; tok
    | ofModule m v =>
      simp only [Identified.tokens, List.mem_cons, List.not_mem_nil, or_false] at ht
      rcases ht with rfl | rfl | rfl <;> tok

theorem scan_symbols (y : Imported) (l : List Imported) (q : S) (hq : q = .no ∨ q = .name) :
    scan q (y.token :: l.flatMap (fun y => [kw Tok.COMMA, y.token])) = .no := by
  exact symbols_scan q hq (symbols_text y l)

/-- What stands after a module without identifier is found. -/
theorem scan_module (x : Import) (b : List Token) : scan .module (x.tokens ++ b) = .found := by
  obtain ⟨y, l, m, i⟩ := x
  unfold Import.tokens
  rw [List.cons_append, List.append_assoc]
  have h1 : S.next .module y.token = .name := by cases y <;> rfl
  change scan (S.next .module y.token) _ = _
  rw [h1]
  cases l with
  | nil => exact scan_found _
  | cons z l => exact scan_found _

theorem scan_import (x : Import) (q : S) (hq : q = .no ∨ q = .name) :
    (x.identified = .none → scan q x.tokens = .module) ∧ (scan q x.tokens = .no ∨ scan q x.tokens = .name ∨ scan q x.tokens = .module) := by
  have h := from_text Links.written false x (.inl rfl)
  refine ⟨fun hi => ?_, ?_⟩
  · obtain ⟨y, l, m, i⟩ := x
    cases (hi : i = .none)
    unfold Import.tokens
    rw [← List.cons_append, scan_append, scan_symbols y l q hq]
    rfl
  · rcases from_scan q hq h with h | h | h
    · exact .inl h
    · exact .inr (.inl h)
    · exact .inr (.inr h.2)

theorem scan_imports : ∀ (l : List Import) (q : S), q = .no ∨ q = .name → (∃ x ∈ l.dropLast, x.identified = .none) →
    scan q (l.flatMap Import.tokens) = .found := by
  intro l
  induction l with
  | nil => rintro q _ ⟨x, h, _⟩; simp at h
  | cons x l ih =>
    rintro q hq ⟨z, hz, hi⟩
    cases l with
    | nil => simp at hz
    | cons y l =>
      rw [List.dropLast_cons_cons] at hz
      rw [List.flatMap_cons, scan_append]
      obtain ⟨h1, h2⟩ := scan_import x q hq
      have hm : scan q x.tokens = .module → scan (scan q x.tokens) ((y :: l).flatMap Import.tokens) = .found := by
        intro h
        rw [h, List.flatMap_cons]
        exact scan_module y _
      rcases List.mem_cons.1 hz with rfl | hz
      · exact hm (h1 hi)
      · rcases h2 with h | h | h
        · rw [h]; exact ih _ (.inl rfl) ⟨z, hz, hi⟩
        · rw [h]; exact ih _ (.inr rfl) ⟨z, hz, hi⟩
        · exact hm h

/-- Lists that are the same up to and including the first token of a kind. -/
theorem split_at_first {c : Int} : ∀ {a a' b b' : List Token}, (∀ t ∈ a, t.1 ≠ c) → (∀ t ∈ a', t.1 ≠ c) →
    a ++ kw c :: b = a' ++ kw c :: b' → a = a' ∧ b = b' := by
  intro a
  induction a with
  | nil =>
    intro a' b b' _ h' e
    cases a' with
    | nil => simp at e; exact ⟨rfl, e⟩
    | cons x a' =>
      simp only [List.nil_append, List.cons_append, List.cons.injEq] at e
      exact absurd (by rw [← e.1]) (h' x (by simp))
  | cons x a ih =>
    intro a' b b' h h' e
    cases a' with
    | nil =>
      simp only [List.nil_append, List.cons_append, List.cons.injEq] at e
      exact absurd (by rw [e.1]) (h x (by simp))
    | cons y a' =>
      simp only [List.cons_append, List.cons.injEq] at e
      obtain ⟨rfl, e⟩ := e
      obtain ⟨rfl, rfl⟩ := ih (fun t ht => h t (by simp [ht])) (fun t ht => h' t (by simp [ht])) e
      exact ⟨rfl, rfl⟩

theorem definitive_begin {a : List Token} {x : DefinitiveObjIdComponent} (h : DefinitiveText a x) : ∀ t ∈ a, t.1 ≠ Tok.BEGIN := by
  cases h <;> simp <;> tok

theorem definitives_begin {a : List Token} {l : List DefinitiveObjIdComponent} (h : DefinitivesText a l) : ∀ t ∈ a, t.1 ≠ Tok.BEGIN := by
  induction h with
  | one a x h => exact definitive_begin h
  | cons a b x l h _ ih =>
    intro t ht
    rcases List.mem_append.1 ht with ht | ht
    · exact definitive_begin h t ht
    · exact ih t ht

theorem header_begin {a : List Token} (h : HeaderText a) : ∀ t ∈ a, t.1 ≠ Tok.BEGIN := by
  obtain ⟨s, a, b, d, i, g, x, h1, h2, h3⟩ := h
  intro t ht
  simp only [List.mem_cons, List.mem_append, List.not_mem_nil, or_false] at ht
  rcases ht with rfl | ht | rfl | ht | ht | rfl
  · tok
  · cases h1 with
    | none => simp at ht
    | some a l h1 =>
      simp only [List.mem_cons, List.mem_append, List.not_mem_nil, or_false] at ht
      rcases ht with rfl | ht | rfl
      · tok
      · exact definitives_begin h1 t ht
      · tok
  · tok
  · cases h2 <;> simp only [List.mem_cons, List.not_mem_nil, or_false] at ht
    all_goals rcases ht with rfl | rfl <;> tok
  · cases h3 <;> simp only [List.mem_cons, List.not_mem_nil, or_false] at ht
    all_goals rcases ht with rfl | rfl <;> tok
  · tok

/-- Exports with nothing like `IMPORTS` in it. -/
theorem symbols_imports {a : List Token} {l : List Symbol} (h : SymbolsText a l) : ∀ t ∈ a, t.1 ≠ Tok.IMPORTS := by
  have one : ∀ {a : List Token} {x : Symbol}, SymbolText a x → ∀ t ∈ a, t.1 ≠ Tok.IMPORTS := by
    intro a x h
    cases h <;> simp <;> tok
  induction h with
  | one a x h => exact one h
  | snoc a b l x _ h ih =>
    intro t ht
    simp only [List.mem_cons, List.mem_append] at ht
    rcases ht with ht | rfl | ht
    · exact ih t ht
    · tok
    · exact one h t ht

theorem exports_imports {a : List Token} (h : ExportsText a) : ∀ t ∈ a, t.1 ≠ Tok.IMPORTS := by
  intro t ht
  cases h with
  | none => simp at ht
  | all =>
    simp only [List.mem_cons, List.not_mem_nil, or_false] at ht
    rcases ht with rfl | rfl | rfl <;> tok
  | empty =>
    simp only [List.mem_cons, List.not_mem_nil, or_false] at ht
    rcases ht with rfl | rfl <;> tok
  | symbols a l h =>
    simp only [List.mem_cons, List.mem_append, List.not_mem_nil, or_false] at ht
    rcases ht with rfl | ht | rfl
    · tok
    · exact symbols_imports h t ht
    · tok

theorem imports_tokens {l : List Import} : ∀ t ∈ l.flatMap Import.tokens, t.1 ≠ Tok.SEMICOLON := by
  intro t ht
  obtain ⟨x, _, ht⟩ := List.mem_flatMap.1 ht
  exact import_semicolon x t ht

/-- Does not start with this token. -/
def NotFirst (c : Int) (l : List Token) : Prop := ∀ t b, l = t :: b → t.1 ≠ c

theorem exports_shape {a : List Token} (h : ExportsText a) :
    a = [] ∨ ∃ b, a = kw Tok.EXPORTS :: (b ++ [kw Tok.SEMICOLON]) ∧ ∀ t ∈ b, t.1 ≠ Tok.SEMICOLON := by
  cases h with
  | none => exact .inl rfl
  | all => exact .inr ⟨[kw Tok.ALL], rfl, by simp; tok⟩
  | empty => exact .inr ⟨[], rfl, by simp⟩
  | symbols a l h => exact .inr ⟨a, rfl, fun t ht => (symbols_inner h t ht).2⟩

/-- Where exports end. -/
theorem exports_split {a a' x y : List Token} (h : ExportsText a) (h' : ExportsText a') (hx : NotFirst Tok.EXPORTS x)
    (hy : NotFirst Tok.EXPORTS y) (e : a ++ x = a' ++ y) : x = y := by
  rcases exports_shape h with rfl | ⟨b, rfl, hb⟩ <;> rcases exports_shape h' with rfl | ⟨b', rfl, hb'⟩
  · exact e
  · exact absurd rfl (hx _ _ e)
  · exact absurd rfl (hy _ _ e.symm)
  · simp only [List.cons_append, List.append_assoc, List.nil_append, List.cons.injEq, true_and] at e
    exact (split_at_first hb hb' e).2

section
variable {R D : Type} {L : Links R D} {simple : Bool} {header exports assignments : List Token} {l : List Import}

theorem assignment_first {a : List Token} {x : Assignment R D} (h : AssignmentText L simple a x) (b : List Token) :
    ∃ t d, a ++ b = t :: d ∧ IsName t = true := by
  cases h with
  | type s a t h => exact ⟨_, _, rfl, rfl⟩
  | value s a b t v h _ => exact ⟨_, _, rfl, rfl⟩

theorem assignments_first {a : List Token} {x : List (Assignment R D)} (h : AssignmentsText L simple a x) (b : List Token) :
    ∃ t d, a ++ b = t :: d ∧ IsName t = true := by
  induction h generalizing b with
  | one a x h => exact assignment_first h b
  | snoc a d l x _ _ ih => rw [List.append_assoc]; exact ih _

theorem assignments_not {c : Int} {a : List Token} {x : List (Assignment R D)} (h : AssignmentsText L simple a x) (b : List Token)
    (hc : IsName (kw c) = false) : NotFirst c (a ++ b) := by
  intro t d e
  obtain ⟨t', d', e', h'⟩ := assignments_first h b
  rw [e, List.cons.injEq] at e'
  obtain ⟨rfl, rfl⟩ := e'
  rintro rfl
  rw [show IsName t = IsName (kw t.1) from rfl, hc] at h'
  cases h'

/-- If a module with imports is notation, the imports are. -/
theorem froms_of_importing {m : ModuleDefinition R D} (hh : HeaderText header) (he : ExportsText exports)
    (hm : ModuleText L simple (importing header exports l assignments) m) :
    l.flatMap Import.tokens = [] ∨ ∃ s, FromsText L simple false (l.flatMap Import.tokens) s := by
  generalize ht : importing header exports l assignments = toks at hm
  obtain ⟨s, a, b, d, e, i, g, x, m, h1, h2, h3, h4⟩ := hm
  have hh' := HeaderText.mk s a b d i g x h1 h2 h3
  have e1 : upper s :: (a ++ kw Tok.DEFINITIONS :: (b ++ (d ++ kw Tok.ASSIGNMENT :: kw Tok.BEGIN :: (e ++ [kw Tok.END])))) =
      upper s :: (a ++ kw Tok.DEFINITIONS :: (b ++ (d ++ [kw Tok.ASSIGNMENT]))) ++ kw Tok.BEGIN :: (e ++ [kw Tok.END]) := by simp
  rw [e1] at ht
  obtain ⟨_, e2⟩ := split_at_first (header_begin hh) (header_begin hh') ht
  have hi : ∀ b, NotFirst Tok.EXPORTS (kw Tok.IMPORTS :: b) := by
    intro b t d e
    rw [List.cons.injEq] at e
    rw [← e.1]
    decide
  cases h4 with
  | empty => cases exports <;> simp at e2
  | some a b d i l' h5 h6 h7 =>
    simp only [List.append_assoc] at e2
    cases h6 with
    | none =>
      have := exports_split he h5 (hi _) (assignments_not h7 _ rfl) e2
      exact absurd rfl (assignments_not h7 [kw Tok.END] (c := Tok.IMPORTS) rfl _ _ this.symm)
    | empty =>
      have := exports_split he h5 (hi _) (hi _) e2
      exact .inl (split_at_first imports_tokens (a' := []) (by simp) (List.cons.inj this).2).1
    | some f _ h6 =>
      have := exports_split he h5 (hi _) (hi _) e2
      have := (List.cons.inj this).2.trans (List.append_assoc f [kw Tok.SEMICOLON] _)
      have := (split_at_first imports_tokens (froms_semicolon h6) this).1
      rw [this]
      exact .inr ⟨_, h6⟩

theorem FromsText.any {c : Bool} {a : List Token} {s : List (SymbolsFromModule R)} (simple : Bool) (h : FromsText L true c a s) :
    FromsText L simple c a s := by
  have oid : ∀ {a : List Token} {s : List (ObjectIdElement R)}, OidText L true a s → OidText L simple a s := by
    intro a s h
    cases h with
    | one a e h => exact .one _ _ h
    | many a b e l h h' => exact .many _ _ _ _ h h'
    | head a b d l h _ _ => cases h
  have one : ∀ {c : Bool} {a : List Token} {s : SymbolsFromModule R}, FromText L true c a s → FromText L simple c a s := by
    intro c a s h
    cases h with
    | oid _ a b l s o h1 h2 => exact .oid _ _ _ _ _ _ h1 (oid h2)
    | defined _ a b l s d h1 h2 => exact .defined _ _ _ _ _ _ h1 h2
    | none a l s h => exact .none _ _ _ h
  induction h with
  | one c a x h => exact .one _ _ _ (one h)
  | snoc c a b l x _ h ih => exact .snoc _ _ _ _ _ ih (one h)

/-- A module with imports whose modules all have identifiers, but maybe the last, is notation. -/
theorem importing_text (hh : HeaderText header) (he : ExportsText exports) {x : List (Assignment R D)}
    (ha : AssignmentsText L simple assignments x) (hl : ∀ y ∈ l.dropLast, y.identified ≠ .none) :
    ∃ m, ModuleText L simple (importing header exports l assignments) m ∧
      m.moduleBody = { imports := l.map Import.meaning, assignmentList := x } := by
  obtain ⟨s, a, b, d, i, g, e, h1, h2, h3⟩ := hh
  have hi : ImportsText L simple (kw Tok.IMPORTS :: (l.flatMap Import.tokens ++ [kw Tok.SEMICOLON])) (l.map Import.meaning) := by
    by_cases h0 : l = []
    · subst h0; exact .empty
    · exact .some _ _ (FromsText.any _ (froms_text L l false h0 hl (.inl rfl)))
  refine ⟨{ moduleIdentifier := ⟨s, i⟩, tagDefault := g, extensibilityImplied := e,
            moduleBody := { imports := l.map Import.meaning, assignmentList := x } }, ?_, rfl⟩
  have := ModuleText.mk s a b d _ i g e _ h1 h2 h3 (.some _ _ _ _ _ he hi ha)
  simpa [importing] using this

end

end Asn1go.Imports
