import Verif.Proofs.Notation.Backward2

/-! Preferred derivations come from notation: modules. -/

namespace Asn1go.Notation

open Asn1go Spec LR Spec.Notation

variable {R D : Type} {L : Links R D} {simple : Bool} {n : Nat} {a : List Token} {p : Place} {next : Int} {s : SymType R D}

theorem type_bk (h : Rs L simple n (.n NT.Type) a p next s) : TypeText L simple false a s.type := (back n).plain h

theorem assignment_bk (h : Rs L simple n (.n NT.Assignment) a p next s) : AssignmentText L simple a s.assignment := by
  rcases split_Assignment h.succ with ⟨_, _, _, rfl, h1, rfl⟩ | ⟨_, _, _, rfl, h1, rfl⟩
  · obtain ⟨_, _, _, _, _, rfl, h2, h3, rfl⟩ := split_TypeAssignment h1.succ
    obtain ⟨w, rfl, rfl⟩ := type_upper h2
    exact .type _ _ _ (type_bk h3)
  · obtain ⟨_, _, _, _, _, _, _, rfl, h2, h3, h4, rfl⟩ := split_ValueAssignment h1.succ
    obtain ⟨w, rfl, rfl⟩ := value_lower h2
    exact .value _ _ _ _ _ (type_bk h3) (value_bk h4)

theorem assignments_bk : ∀ {n : Nat} {a : List Token} {p : Place} {next : Int} {s : SymType R D},
    Rs L simple n (.n NT.AssignmentList) a p next s → AssignmentsText L simple a s.assignmentList := by
  intro n
  induction n with
  | zero => intro a p next s h; exact h.not_zero.elim
  | succ n ih =>
    intro a p next s h
    rcases split_AssignmentList h with ⟨_, _, _, rfl, h1, rfl⟩ | ⟨_, _, _, _, _, rfl, h1, h2, rfl⟩
    · exact .one _ _ (assignment_bk h1)
    · exact .snoc _ _ _ _ (ih h1) (assignment_bk h2)

theorem symbol_bk (h : Rs L simple n (.n NT.Symbol) a p next s) : SymbolText a s.symbol := by
  obtain ⟨_, _, _, rfl, h1, rfl⟩ := split_Symbol h.succ
  rcases split_Reference h1.succ with ⟨_, _, _, rfl, h2, rfl⟩ | ⟨_, _, _, rfl, h2, rfl⟩
  · obtain ⟨w, rfl, rfl⟩ := type_upper h2
    exact .type _
  · obtain ⟨w, rfl, rfl⟩ := value_lower h2
    exact .value _

theorem symbols_bk : ∀ {n : Nat} {a : List Token} {p : Place} {next : Int} {s : SymType R D},
    Rs L simple n (.n NT.SymbolList) a p next s → SymbolsText a s.symbolList := by
  intro n
  induction n with
  | zero => intro a p next s h; exact h.not_zero.elim
  | succ n ih =>
    intro a p next s h
    rcases split_SymbolList h with ⟨_, _, _, rfl, h1, rfl⟩ | ⟨_, _, _, _, _, rfl, h1, h2, rfl⟩
    · exact .one _ _ (symbol_bk h1)
    · exact .snoc _ _ _ _ (ih h1) (symbol_bk h2)

/-- The token codes a list of symbols starts with. -/
def Symbolic (next : Int) : Prop := next = Tok.TYPEORMODULEREFERENCE ∨ next = Tok.VALUEIDENTIFIER

theorem symbol_starts {x : Symbol} {next : Int} (b : List Token) (h : SymbolText a x) : Symbolic (firstCode next (a ++ b)) := by
  cases h
  · exact .inl rfl
  · exact .inr rfl

theorem symbols_start {l : List Symbol} {next : Int} (b : List Token) (h : SymbolsText a l) : Symbolic (firstCode next (a ++ b)) := by
  induction h generalizing b with
  | one a x h => exact symbol_starts b h
  | snoc a c l x _ _ ih =>
    rw [List.append_assoc]
    exact ih _

theorem from_bk (h : Rs L simple n (.n NT.SymbolsFromModule) a p next s) (c : Bool) (hc : c = false ∨ Symbolic next) :
    FromText L simple c a s.symbolsFromModule := by
  obtain ⟨_, _, _, _, _, rfl, h1, h2, rfl⟩ := split_SymbolsFromModule h.succ
  obtain ⟨_, _, _, _, _, rfl, h3, h4, rfl⟩ := split_GlobalModuleReference h2.succ
  obtain ⟨w, rfl, rfl⟩ := module_upper h3
  rcases split_AssignedIdentifier h4.succ with ⟨_, _, _, rfl, h5, rfl⟩ | ⟨_, _, _, rfl, h5, rfl⟩ | ⟨ha, rfl, rfl⟩
  · exact .oid _ _ _ _ _ _ (symbols_bk h1) (oid_bk h5)
  · exact .defined _ _ _ _ _ _ (symbols_bk h1) (defined_bk h5)
  · rcases hc with rfl | hc | hc
    · exact .none _ _ _ (symbols_bk h1)
    · exact absurd hc (not_before ha _)
    · exact absurd hc (not_before ha _)

theorem from_starts {c : Bool} {x : SymbolsFromModule R} (h : FromText L simple c a x) (next : Int) : Symbolic (firstCode next a) := by
  cases h with
  | oid _ a b l s o h _ => exact symbols_start _ h
  | defined _ a b l s d h _ => exact symbols_start _ h
  | none a l s h => exact symbols_start _ h

theorem froms_bk : ∀ {n : Nat} {a : List Token} {p : Place} {next : Int} {s : SymType R D},
    Rs L simple n (.n NT.SymbolsFromModuleList) a p next s → ∀ c : Bool, c = false ∨ Symbolic next → FromsText L simple c a s.imports := by
  intro n
  induction n with
  | zero => intro a p next s h; exact h.not_zero.elim
  | succ n ih =>
    intro a p next s h c hc
    rcases split_SymbolsFromModuleList h with ⟨_, _, _, rfl, h1, rfl⟩ | ⟨_, _, _, _, _, rfl, h1, h2, rfl⟩
    · exact .one _ _ _ (from_bk h1 c hc)
    · have h3 := from_bk h2 c hc
      exact .snoc _ _ _ _ _ (ih h1 true (.inr (from_starts h3 _))) h3

theorem exports_bk (h : Rs L simple n (.n NT.Exports) a p next s) : ExportsText a := by
  rcases split_Exports h.succ with ⟨_, _, _, rfl, h1, rfl⟩ | ⟨_, rfl, rfl⟩ | ⟨_, rfl, rfl⟩
  · rcases split_SymbolsExported h1.succ with ⟨_, _, _, rfl, h2, rfl⟩ | ⟨_, rfl, rfl⟩
    · exact .symbols _ _ (symbols_bk h2)
    · exact .empty
  · exact .all
  · exact .none

theorem imports_bk (h : Rs L simple n (.n NT.Imports) a p next s) : ImportsText L simple a s.imports := by
  rcases split_Imports h.succ with ⟨_, _, _, rfl, h1, rfl⟩ | ⟨_, rfl, rfl⟩
  · rcases split_SymbolsImported h1.succ with ⟨_, _, _, rfl, h2, rfl⟩ | ⟨_, rfl, rfl⟩
    · exact .some _ _ (froms_bk h2 false (.inl rfl))
    · exact .empty
  · exact .none

theorem moduleBody_bk (h : Rs L simple n (.n NT.ModuleBody) a p next s) : ModuleBodyText L simple a s.moduleBody := by
  rcases split_ModuleBody h.succ with ⟨_, _, _, _, _, _, _, rfl, h1, h2, h3, rfl⟩ | ⟨_, rfl, rfl⟩
  · exact .some _ _ _ _ _ (exports_bk h1) (imports_bk h2) (assignments_bk h3)
  · exact .empty

theorem definitive_bk (h : Rs L simple n (.n NT.DefinitiveObjIdComponent) a p next s) : DefinitiveText a s.definitiveObjIdComponent := by
  rcases split_DefinitiveObjIdComponent h.succ with ⟨_, _, _, rfl, h1, rfl⟩ | ⟨_, _, _, rfl, h1, rfl⟩ | ⟨_, _, _, rfl, h1, rfl⟩
  · obtain ⟨_, _, _, rfl, h2, rfl⟩ := split_NameForm h1.succ
    obtain ⟨w, rfl, rfl⟩ := identifier_lower h2
    exact .name _
  · obtain ⟨_, _, _, rfl, rfl⟩ := split_DefinitiveNumberForm h1.succ
    exact .number _ _
  · obtain ⟨_, _, _, _, _, rfl, h2, h3, rfl⟩ := split_DefinitiveNameAndNumberForm h1.succ
    obtain ⟨w, rfl, rfl⟩ := identifier_lower h2
    obtain ⟨_, _, _, rfl, rfl⟩ := split_DefinitiveNumberForm h3.succ
    exact .both _ _ _

theorem definitives_bk : ∀ {n : Nat} {a : List Token} {p : Place} {next : Int} {s : SymType R D},
    Rs L simple n (.n NT.DefinitiveObjIdComponentList) a p next s → DefinitivesText a s.definitiveObjIdComponentList := by
  intro n
  induction n with
  | zero => intro a p next s h; exact h.not_zero.elim
  | succ n ih =>
    intro a p next s h
    rcases split_DefinitiveObjIdComponentList h with ⟨_, _, _, rfl, h1, rfl⟩ | ⟨_, _, _, _, _, rfl, h1, h2, rfl⟩
    · exact .one _ _ (definitive_bk h1)
    · exact .cons _ _ _ _ (definitive_bk h1) (ih h2)

theorem identifierText_bk (h : Rs L simple n (.n NT.DefinitiveIdentifier) a p next s) : Notation.IdentifierText a s.definitiveIdentifier := by
  rcases split_DefinitiveIdentifier h.succ with ⟨_, _, _, rfl, h1, rfl⟩ | ⟨_, rfl, rfl⟩
  · exact .some _ _ (definitives_bk h1)
  · exact .none

theorem tags_bk (h : Rs L simple n (.n NT.TagDefault) a p next s) : TagsText a s.tagDefault := by
  rcases split_TagDefault h.succ with ⟨_, rfl, rfl⟩ | ⟨_, rfl, rfl⟩ | ⟨_, rfl, rfl⟩ | ⟨_, rfl, rfl⟩
  · exact .explicit
  · exact .implicit
  · exact .automatic
  · exact .none

theorem extensibility_bk (h : Rs L simple n (.n NT.ExtensionDefault) a p next s) : ExtensibilityText a s.extensionDefault := by
  rcases split_ExtensionDefault h.succ with ⟨_, rfl, rfl⟩ | ⟨_, rfl, rfl⟩
  · exact .implied
  · exact .none

/-- The tokens of a preferred derivation are notation for the value of the derivation. -/
theorem module_bk {t : Tree} (h0 : Sane a) (hd : Derives (.n NT.ModuleDefinition) a t) (hp : t.IsPreferred)
    (hu : simple = true → t.uses 152 = false ∧ t.uses 188 = false) : ModuleText L simple a (t.module (pointers L)) := by
  cases hd with
  | node r _ rhs _ kids h1 h2 h3 =>
    have hr : (r, rhs) ∈ rulesFor NT.ModuleDefinition := mem_rulesFor h1 h2
    have e : rulesFor NT.ModuleDefinition = [(1, [.n NT.ModuleIdentifier, .t Tok.DEFINITIONS, .n NT.TagDefault, .n NT.ExtensionDefault,
      .t Tok.ASSIGNMENT, .t Tok.BEGIN, .n NT.ModuleBody, .t Tok.END])] := by decide +kernel
    rw [e, List.mem_singleton, Prod.mk.injEq] at hr
    obtain ⟨rfl, rfl⟩ := hr
    rw [Tree.IsPreferred, Tree.Preferred] at hp
    have h : RsL L simple (sizeOf kids) 1 .other 0 0 [.n NT.ModuleIdentifier, .t Tok.DEFINITIONS, .n NT.TagDefault,
        .n NT.ExtensionDefault, .t Tok.ASSIGNMENT, .t Tok.BEGIN, .n NT.ModuleBody, .t Tok.END] a (Tree.evalList (pointers L) kids) := by
      refine ⟨h0, kids, Nat.le_refl _, h3, hp.2, ?_, rfl⟩
      intro hs
      have := hu hs
      rw [Tree.uses, Tree.uses] at this
      simpa using this
    rw [Tree.module]
    generalize Tree.evalList (pointers L) kids = ss at h
    obtain ⟨a0, b0, s0, ss0, rfl, rfl, k0, g0⟩ := h.cons
    obtain ⟨a1, b1, s1, ss1, rfl, rfl, k1, g1⟩ := g0.cons
    obtain ⟨rfl, rfl⟩ := k1.isKw
    obtain ⟨a2, b2, s2, ss2, rfl, rfl, k2, g2⟩ := g1.cons
    obtain ⟨a3, b3, s3, ss3, rfl, rfl, k3, g3⟩ := g2.cons
    obtain ⟨a4, b4, s4, ss4, rfl, rfl, k4, g4⟩ := g3.cons
    obtain ⟨rfl, rfl⟩ := k4.isKw
    obtain ⟨a5, b5, s5, ss5, rfl, rfl, k5, g5⟩ := g4.cons
    obtain ⟨rfl, rfl⟩ := k5.isKw
    obtain ⟨a6, b6, s6, ss6, rfl, rfl, k6, g6⟩ := g5.cons
    obtain ⟨s7, rfl, k7⟩ := g6.last
    obtain ⟨rfl, rfl⟩ := k7.isKw
    obtain ⟨_, _, _, _, _, rfl, i1, i2, rfl⟩ := split_ModuleIdentifier k0.succ
    obtain ⟨w, rfl, rfl⟩ := module_upper i1
    exact .mk _ _ _ _ _ _ _ _ _ (identifierText_bk i2) (tags_bk k2) (extensibility_bk k3) (moduleBody_bk k6)

end Asn1go.Notation
