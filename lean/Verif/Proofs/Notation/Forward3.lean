import Verif.Proofs.Notation.Forward2

/-! Notation of modules has preferred derivations with the value it stands for. -/

namespace Asn1go.Notation

open Asn1go Spec LR Spec.Notation

variable {R D : Type} {L : Links R D} {simple : Bool} {a : List Token}

theorem assignment_rd {x : Assignment R D} (h : AssignmentText L simple a x) :
    ∃ s, s.assignment = x ∧ ∀ p next, next ≠ Tok.OPEN_ROUND → Rd L simple (.n NT.Assignment) a p next s := by
  cases h with
  | type s a t h =>
    obtain ⟨x, rfl, hx⟩ := upper_type L simple s
    obtain ⟨y, rfl, hy⟩ := type_rd h
    exact ⟨_, rfl, fun _ _ hn => .node 49 (.last (.node 54 (.cons (hx _ _) (.cons .leaf (.last (hy _ _ (.inr hn)))))))⟩
  | value s a b t v h h' =>
    obtain ⟨x, rfl, hx⟩ := lower_value L simple s
    obtain ⟨y, rfl, hy⟩ := type_rd h
    obtain ⟨z, rfl, hz⟩ := value_rd L simple h'
    exact ⟨_, rfl, fun _ _ hn => .node 50 (.last (.node 55 (.cons (hx _ _) (.cons (hy _ _ may) (.cons .leaf (.last (hz _ _)))))))⟩

theorem assignment_first {x : Assignment R D} (h : AssignmentText L simple a x) (next : Int) : firstCode next a ≠ Tok.OPEN_ROUND := by
  cases h
  · exact (by decide : Tok.TYPEORMODULEREFERENCE ≠ Tok.OPEN_ROUND)
  · exact (by decide : Tok.VALUEIDENTIFIER ≠ Tok.OPEN_ROUND)

theorem assignments_rd {l : List (Assignment R D)} (h : AssignmentsText L simple a l) :
    ∃ s, s.assignmentList = l ∧ ∀ p next, next ≠ Tok.OPEN_ROUND → Rd L simple (.n NT.AssignmentList) a p next s := by
  induction h with
  | one a x h =>
    obtain ⟨x, rfl, hx⟩ := assignment_rd h
    exact ⟨_, rfl, fun _ _ hn => .node 47 (.last (hx _ _ hn))⟩
  | snoc a b l x _ h ih =>
    obtain ⟨y, rfl, hy⟩ := ih
    have hf := assignment_first h
    obtain ⟨x, rfl, hx⟩ := assignment_rd h
    exact ⟨_, rfl, fun _ _ hn => .node 48 (.cons (hy _ _ (hf _)) (.last (hx _ _ hn)))⟩

theorem symbol_rd {x : Symbol} (h : SymbolText a x) : ∃ s, s.symbol = x ∧ ∀ p next, Rd L simple (.n NT.Symbol) a p next s := by
  cases h with
  | type s =>
    obtain ⟨x, rfl, hx⟩ := upper_type L simple s
    exact ⟨_, rfl, fun _ _ => .node 43 (.last (.node 44 (.last (hx _ _))))⟩
  | value s =>
    obtain ⟨x, rfl, hx⟩ := lower_value L simple s
    exact ⟨_, rfl, fun _ _ => .node 43 (.last (.node 46 (.last (hx _ _))))⟩

theorem symbols_rd {l : List Symbol} (h : SymbolsText a l) :
    ∃ s, s.symbolList = l ∧ ∀ p next, Rd L simple (.n NT.SymbolList) a p next s := by
  induction h with
  | one a x h =>
    obtain ⟨x, rfl, hx⟩ := symbol_rd (L := L) (simple := simple) h
    exact ⟨_, rfl, fun _ _ => .node 41 (.last (hx _ _))⟩
  | snoc a b l x _ h ih =>
    obtain ⟨y, rfl, hy⟩ := ih
    obtain ⟨x, rfl, hx⟩ := symbol_rd (L := L) (simple := simple) h
    exact ⟨_, rfl, fun _ _ => .node 42 (.cons (hy _ _) (.cons .leaf (.last (hx _ _))))⟩

/-- What follows an imported module. -/
abbrev Ends (c : Bool) (next : Int) : Prop := c = true ∨ next ∉ [Tok.TYPEORMODULEREFERENCE, Tok.VALUEIDENTIFIER]

theorem allowed_40 {p : Place} {next : Int} (h : next ∉ [Tok.TYPEORMODULEREFERENCE, Tok.VALUEIDENTIFIER]) : Allowed 40 p next := by
  refine ⟨by decide, by cases p <;> decide, ?_⟩
  have : ∀ e ∈ notBefore, e.1 = 40 → e.2 = [Tok.TYPEORMODULEREFERENCE, Tok.VALUEIDENTIFIER] := by decide
  intro e he hr
  rw [this e he hr]
  exact h

theorem from_rd {c : Bool} {x : SymbolsFromModule R} (h : FromText L simple c a x) :
    ∃ s, s.symbolsFromModule = x ∧ ∀ p next, Ends c next → Rd L simple (.n NT.SymbolsFromModule) a p next s := by
  cases h with
  | oid _ a b l s o h h' =>
    obtain ⟨x, rfl, hx⟩ := symbols_rd (L := L) (simple := simple) h
    obtain ⟨y, rfl, hy⟩ := upper_module L simple s
    obtain ⟨z, rfl, hz⟩ := oid_rd L simple h'
    exact ⟨_, rfl, fun _ _ _ => .node 36 (.cons (hx _ _) (.cons .leaf (.last (.node 37 (.cons (hy _ _) (.last (.node 38 (.last (hz _ _)))))))))⟩
  | defined _ a b l s o h h' =>
    obtain ⟨x, rfl, hx⟩ := symbols_rd (L := L) (simple := simple) h
    obtain ⟨y, rfl, hy⟩ := upper_module L simple s
    obtain ⟨z, rfl, hz⟩ := defined_rd L simple h'
    exact ⟨_, rfl, fun _ _ _ => .node 36 (.cons (hx _ _) (.cons .leaf (.last (.node 37 (.cons (hy _ _) (.last (.node 39 (.last (hz _ _)))))))))⟩
  | none a l s h =>
    obtain ⟨x, rfl, hx⟩ := symbols_rd (L := L) (simple := simple) h
    obtain ⟨y, rfl, hy⟩ := upper_module L simple s
    exact ⟨_, rfl, fun _ _ he => .node 36 (.cons (hx _ _) (.cons .leaf (.last (.node 37 (.cons (hy _ _) (.last
      (.node_allowed 40 (allowed_40 (he.resolve_left (by simp))) .nil (by simp))))))))⟩

theorem froms_rd {c : Bool} {l : List (SymbolsFromModule R)} (h : FromsText L simple c a l) :
    ∃ s, s.imports = l ∧ ∀ p next, Ends c next → Rd L simple (.n NT.SymbolsFromModuleList) a p next s := by
  induction h with
  | one c a x h =>
    obtain ⟨x, rfl, hx⟩ := from_rd h
    exact ⟨_, rfl, fun _ _ he => .node 34 (.last (hx _ _ he))⟩
  | snoc c a b l x _ h ih =>
    obtain ⟨y, rfl, hy⟩ := ih
    obtain ⟨x, rfl, hx⟩ := from_rd h
    exact ⟨_, rfl, fun _ _ he => .node 35 (.cons (hy _ _ (.inl rfl)) (.last (hx _ _ he)))⟩

theorem exports_rd (h : ExportsText a) : ∃ s, ∀ p next, Rd L simple (.n NT.Exports) a p next s := by
  cases h with
  | none => exact ⟨_, fun _ _ => .node 27 .nil⟩
  | all => exact ⟨_, fun _ _ => .node 26 (.cons .leaf (.cons .leaf (.last .leaf)))⟩
  | empty => exact ⟨_, fun _ _ => .node 25 (.cons .leaf (.cons (.node 29 .nil) (.last .leaf)))⟩
  | symbols a l h =>
    obtain ⟨x, rfl, hx⟩ := symbols_rd (L := L) (simple := simple) h
    exact ⟨_, fun _ _ => .node 25 (.cons .leaf (.cons (.node 28 (.last (hx _ _))) (.last .leaf)))⟩

theorem imports_rd {l : List (SymbolsFromModule R)} (h : ImportsText L simple a l) :
    ∃ s, s.imports = l ∧ ∀ p next, Rd L simple (.n NT.Imports) a p next s := by
  cases h with
  | none => exact ⟨_, rfl, fun _ _ => .node 31 .nil⟩
  | empty => exact ⟨_, rfl, fun _ _ => .node 30 (.cons .leaf (.cons (.node 33 .nil) (.last .leaf)))⟩
  | some a l h =>
    obtain ⟨x, rfl, hx⟩ := froms_rd h
    have he : ∀ next, Ends false (firstCode next [kw Tok.SEMICOLON]) := fun _ =>
      .inr (by decide : Tok.SEMICOLON ∉ [Tok.TYPEORMODULEREFERENCE, Tok.VALUEIDENTIFIER])
    refine ⟨_, ?_, fun _ _ => .node 30 (.cons .leaf (.cons (.node 32 (.last (hx _ _ (he _)))) (.last .leaf)))⟩
    rfl

theorem moduleBody_rd {m : ModuleBody R D} (h : ModuleBodyText L simple a m) :
    ∃ s, s.moduleBody = m ∧ ∀ p next, next ≠ Tok.OPEN_ROUND → Rd L simple (.n NT.ModuleBody) a p next s := by
  cases h with
  | empty => exact ⟨_, rfl, fun _ _ _ => .node 24 .nil⟩
  | some a b d i l h1 h2 h3 =>
    obtain ⟨x, hx⟩ := exports_rd (L := L) (simple := simple) h1
    obtain ⟨y, rfl, hy⟩ := imports_rd h2
    obtain ⟨z, rfl, hz⟩ := assignments_rd h3
    exact ⟨_, rfl, fun _ _ hn => .node 23 (.cons (hx _ _) (.cons (hy _ _) (.last (hz _ _ hn))))⟩

theorem definitive_rd {c : DefinitiveObjIdComponent} (h : DefinitiveText a c) :
    ∃ s, s.definitiveObjIdComponent = c ∧ ∀ p next, Rd L simple (.n NT.DefinitiveObjIdComponent) a p next s := by
  cases h with
  | name s =>
    obtain ⟨x, rfl, hx⟩ := lower_identifier L simple s
    exact ⟨_, rfl, fun _ _ => .node 12 (.last (.node 198 (.last (hx _ _))))⟩
  | number r n => exact ⟨_, rfl, fun _ _ => .node 13 (.last (.node 15 (.last .leaf)))⟩
  | both s r n =>
    obtain ⟨x, rfl, hx⟩ := lower_identifier L simple s
    exact ⟨_, rfl, fun _ _ => .node 14 (.last (.node 16 (.cons (hx _ _) (.cons .leaf (.cons (.node 15 (.last .leaf)) (.last .leaf))))))⟩

theorem definitives_rd {l : List DefinitiveObjIdComponent} (h : DefinitivesText a l) :
    ∃ s, s.definitiveObjIdComponentList = l ∧ ∀ p next, Rd L simple (.n NT.DefinitiveObjIdComponentList) a p next s := by
  induction h with
  | one a x h =>
    obtain ⟨x, rfl, hx⟩ := definitive_rd (L := L) (simple := simple) h
    exact ⟨_, rfl, fun _ _ => .node 10 (.last (hx _ _))⟩
  | cons a b x l h _ ih =>
    obtain ⟨x, rfl, hx⟩ := definitive_rd (L := L) (simple := simple) h
    obtain ⟨y, rfl, hy⟩ := ih
    exact ⟨_, rfl, fun _ _ => .node 11 (.cons (hx _ _) (.last (hy _ _)))⟩

theorem identifier_rd {l : List DefinitiveObjIdComponent} (h : IdentifierText a l) :
    ∃ s, s.definitiveIdentifier = l ∧ ∀ p next, Rd L simple (.n NT.DefinitiveIdentifier) a p next s := by
  cases h with
  | none => exact ⟨_, rfl, fun _ _ => .node 9 .nil⟩
  | some a l h =>
    obtain ⟨x, rfl, hx⟩ := definitives_rd (L := L) (simple := simple) h
    exact ⟨_, rfl, fun _ _ => .node 8 (.cons .leaf (.cons (hx _ _) (.last .leaf)))⟩

theorem tags_rd {g : Int} (h : TagsText a g) : ∃ s, s.tagDefault = g ∧ ∀ p next, Rd L simple (.n NT.TagDefault) a p next s := by
  cases h with
  | explicit => exact ⟨_, rfl, fun _ _ => .node 17 (.cons .leaf (.last .leaf))⟩
  | implicit => exact ⟨_, rfl, fun _ _ => .node 18 (.cons .leaf (.last .leaf))⟩
  | automatic => exact ⟨_, rfl, fun _ _ => .node 19 (.cons .leaf (.last .leaf))⟩
  | none => exact ⟨_, rfl, fun _ _ => .node 20 .nil⟩

theorem extensibility_rd {x : Bool} (h : ExtensibilityText a x) :
    ∃ s, s.extensionDefault = x ∧ ∀ p next, Rd L simple (.n NT.ExtensionDefault) a p next s := by
  cases h with
  | implied => exact ⟨_, rfl, fun _ _ => .node 21 (.cons .leaf (.last .leaf))⟩
  | none => exact ⟨_, rfl, fun _ _ => .node 22 .nil⟩

/-- Notation for a module has a preferred derivation whose value is the module. -/
theorem module_tree {m : ModuleDefinition R D} (h : ModuleText L simple a m) :
    ∃ t, Derives (.n NT.ModuleDefinition) a t ∧ t.IsPreferred ∧ (simple = true → t.uses 152 = false ∧ t.uses 188 = false) ∧
      t.module (pointers L) = m := by
  cases h with
  | mk s a b d e i g x m h1 h2 h3 h4 =>
    obtain ⟨x0, rfl, hx0⟩ := upper_module L simple s
    obtain ⟨x1, rfl, hx1⟩ := identifier_rd (L := L) (simple := simple) h1
    obtain ⟨x2, rfl, hx2⟩ := tags_rd (L := L) (simple := simple) h2
    obtain ⟨x3, rfl, hx3⟩ := extensibility_rd (L := L) (simple := simple) h3
    obtain ⟨x4, rfl, hx4⟩ := moduleBody_rd h4
    have hk : ∃ ss, moduleOf (dollars ss) = ⟨⟨x0.name, x1.definitiveIdentifier⟩, x2.tagDefault, x3.extensionDefault, x4.moduleBody⟩ ∧
        RdL L simple 1 .other 0 0 [.n NT.«ModuleIdentifier», .t Tok.DEFINITIONS, .n NT.«TagDefault», .n NT.«ExtensionDefault»,
          .t Tok.ASSIGNMENT, .t Tok.BEGIN, .n NT.«ModuleBody», .t Tok.END]
          ((upper x0.name :: a) ++ (kw Tok.DEFINITIONS :: (b ++ (d ++ kw Tok.ASSIGNMENT :: kw Tok.BEGIN :: (e ++ [kw Tok.END]))))) ss :=
      ⟨_, rfl, .cons (.node 7 (.cons (hx0 _ _) (.last (hx1 _ _)))) (.cons .leaf (.cons (hx2 _ _) (.cons (hx3 _ _) (.cons .leaf (.cons .leaf
        (.cons (hx4 _ _ nor) (.last .leaf)))))))⟩
    obtain ⟨ss, hm, ts, hd, hp, hu, rfl⟩ := hk
    refine ⟨.node 1 ts, .node 1 _ _ _ ts (by decide) rfl hd, ?_, ?_, hm⟩
    · rw [Tree.IsPreferred, Tree.Preferred]
      exact ⟨allowed_of_free rfl, hp⟩
    · intro h
      rw [Tree.uses, Tree.uses, (hu h).1, (hu h).2]
      exact ⟨rfl, rfl⟩

end Asn1go.Notation
