import Verif.Proofs.Real
import Verif.Spec.Real
import Verif.Props.Pointers

/-! Values of REAL literals: C21. -/

namespace Asn1go.Props

open Spec LR

/-! ### C21: real literals -/

/-- The literal in a derivation of `realnumber` has the value of its digits. -/
def C21_statement : Prop := ∀ (l : RealLit) (t : Tree), (∀ c ∈ l.fraction, 48 ≤ c.toNat ∧ c.toNat ≤ 57) →
  Derives (.n NT.realnumber) l.tokens t → (t.eval idealPointers).real.value = some l.value

theorem parseRealNumber_eq (i f e : Int) : parseRealNumber i f e =
    (if f ≠ 0 then (i : ℚ) + (f : ℚ) / 10 ^ Nat.clog 10 f.toNat else (i : ℚ)) * 10 ^ e := by
  unfold parseRealNumber
  by_cases h : e = 0 <;> simp [h]

theorem derivesList_leaf {code : Int} {l : List Sym} {toks : List Token} {kids : List Tree} (h : DerivesList (.t code :: l) toks kids) :
    ∃ p toks' kids', toks = (code, p) :: toks' ∧ kids = .leaf code p :: kids' ∧ DerivesList l toks' kids' := by
  cases h with
  | cons _ _ a b t ts ht hts =>
    cases ht
    exact ⟨_, b, ts, rfl, rfl, hts⟩

theorem derivesList_one {X : Sym} {toks : List Token} {kids : List Tree} (h : DerivesList [X] toks kids) :
    ∃ t, kids = [t] ∧ Derives X toks t := by
  cases h with
  | cons _ _ a b t ts ht hts =>
    cases hts
    exact ⟨t, rfl, by simpa using ht⟩

theorem derivesList_none {toks : List Token} {kids : List Tree} (h : DerivesList [] toks kids) : toks = [] ∧ kids = [] := by
  cases h
  exact ⟨rfl, rfl⟩

/-- The exponent of a literal as evaluated. -/
theorem exponent_eval {toks : List Token} {t : Tree} (h : Derives (.n NT.SignedExponent) toks t) :
    ∃ p, (toks = [(Tok.NUMBER, p)] ∧ (t.eval idealPointers).number = (leafValue p : SymType DefinedValue (Value DefinedValue)).number) ∨
      (∃ q, toks = [(Tok.MINUS, q), (Tok.NUMBER, p)] ∧
        (t.eval idealPointers).number = - (leafValue p : SymType DefinedValue (Value DefinedValue)).number) := by
  rcases inv_SignedExponent h with ⟨kids, rfl, hk⟩ | ⟨kids, rfl, hk⟩
  · obtain ⟨p, toks', kids', rfl, rfl, hk'⟩ := derivesList_leaf hk
    obtain ⟨rfl, rfl⟩ := derivesList_none hk'
    exact ⟨p, .inl ⟨rfl, rfl⟩⟩
  · obtain ⟨q, toks', kids', rfl, rfl, hk'⟩ := derivesList_leaf hk
    obtain ⟨p, toks', kids', rfl, rfl, hk''⟩ := derivesList_leaf hk'
    obtain ⟨rfl, rfl⟩ := derivesList_none hk''
    exact ⟨p, .inr ⟨q, rfl, rfl⟩⟩

/-- What the parser makes of a literal. -/
theorem realnumber_eval (l : RealLit) (t : Tree) (h : Derives (.n NT.realnumber) l.tokens t) :
    (t.eval idealPointers).real = .lit (decimal l.whole) (decimal l.fraction) l.exponent := by
  obtain ⟨w, fr, ex⟩ := l
  generalize ht : RealLit.tokens ⟨w, fr, ex⟩ = toks at h
  rcases inv_realnumber h with ⟨kids, rfl, hk⟩ | ⟨kids, rfl, hk⟩ | ⟨kids, rfl, hk⟩ | ⟨kids, rfl, hk⟩
  · obtain ⟨p, toks', kids', rfl, rfl, h1⟩ := derivesList_leaf hk
    obtain ⟨rfl, rfl⟩ := derivesList_none h1
    rcases fr with _ | fr <;> rcases ex with _ | ⟨_ | _, ex⟩ <;> simp [RealLit.tokens, numberToken] at ht
    subst ht
    rfl
  · obtain ⟨p, toks', kids', rfl, rfl, h1⟩ := derivesList_leaf hk
    obtain ⟨p2, toks', kids', rfl, rfl, h2⟩ := derivesList_leaf h1
    obtain ⟨p3, toks', kids', rfl, rfl, h3⟩ := derivesList_leaf h2
    obtain ⟨rfl, rfl⟩ := derivesList_none h3
    rcases fr with _ | fr <;> rcases ex with _ | ⟨_ | _, ex⟩ <;> simp [RealLit.tokens, numberToken] at ht
    obtain ⟨rfl, -, rfl⟩ := ht
    rfl
  · obtain ⟨p, toks', kids', rfl, rfl, h1⟩ := derivesList_leaf hk
    obtain ⟨p2, toks', kids', rfl, rfl, h2⟩ := derivesList_leaf h1
    obtain ⟨p3, toks', kids', rfl, rfl, h3⟩ := derivesList_leaf h2
    obtain ⟨p4, toks', kids', rfl, rfl, h4⟩ := derivesList_leaf h3
    obtain ⟨t, rfl, h5⟩ := derivesList_one h4
    have he : ∀ t : Tree, (Tree.eval idealPointers (.node 115 [.leaf Tok.NUMBER p, .leaf Tok.DOT p2, .leaf Tok.NUMBER p3,
      .leaf Tok.EXPONENT p4, t])).real = .lit (leafValue p : SymType DefinedValue (Value DefinedValue)).number
        (leafValue p3 : SymType DefinedValue (Value DefinedValue)).number (t.eval idealPointers).number := fun _ => rfl
    rw [he]
    obtain ⟨pe, ⟨rfl, h6⟩ | ⟨q, rfl, h6⟩⟩ := exponent_eval h5 <;> rw [h6] <;>
      rcases fr with _ | fr <;> rcases ex with _ | ⟨_ | _, ex⟩ <;> simp [RealLit.tokens, numberToken] at ht
    · obtain ⟨rfl, -, rfl, -, rfl⟩ := ht
      rfl
    · obtain ⟨rfl, -, rfl, -, -, rfl⟩ := ht
      rfl
  · obtain ⟨p, toks', kids', rfl, rfl, h1⟩ := derivesList_leaf hk
    obtain ⟨p2, toks', kids', rfl, rfl, h2⟩ := derivesList_leaf h1
    obtain ⟨t, rfl, h5⟩ := derivesList_one h2
    have he : ∀ t : Tree, (Tree.eval idealPointers (.node 116 [.leaf Tok.NUMBER p, .leaf Tok.EXPONENT p2, t])).real =
      .lit (leafValue p : SymType DefinedValue (Value DefinedValue)).number 0 (t.eval idealPointers).number := fun _ => rfl
    rw [he]
    obtain ⟨pe, ⟨rfl, h6⟩ | ⟨q, rfl, h6⟩⟩ := exponent_eval h5 <;> rw [h6] <;>
      rcases fr with _ | fr <;> rcases ex with _ | ⟨_ | _, ex⟩ <;> simp [RealLit.tokens, numberToken] at ht
    · obtain ⟨rfl, -, rfl⟩ := ht
      rfl
    · obtain ⟨rfl, -, -, rfl⟩ := ht
      rfl

/-- When a literal has its decimal value: exactly if the digits after the dot are all zero or start with a digit other than
zero and are not `10…0`.  Missing from C21: the other literals, for which it is false. -/
theorem C21_exactly_partial (l : RealLit) (t : Tree) (hf : ∀ c ∈ l.fraction, 48 ≤ c.toNat ∧ c.toNat ≤ 57)
    (h : Derives (.n NT.realnumber) l.tokens t) : (t.eval idealPointers).real.value = some l.value ↔
      decimal l.fraction = 0 ∨ 10 ^ (l.fraction.length - 1) < decimal l.fraction := by
  rw [realnumber_eval l t h, GoReal.value, parseRealNumber_eq, RealLit.value, Option.some_inj,
    mul_left_inj' (zpow_ne_zero _ (by norm_num)), ← fraction_iff (decimal l.whole) l.fraction hf]
  simp

/-- `123.4` denotes 123.4. -/
example : (parseRealNumber 123 4 0 = 617 / 5) ∧ (RealLit.mk (c! "123") (some (c! "4")) none).value = 617 / 5 := by decide +kernel

/-- `1.1`. -/
def onePointOne : RealLit := { whole := c! "1", frac := some (c! "1") }

/-- The text `1.1` is read as 2. -/
theorem C21_witness : Derives (.n NT.realnumber) onePointOne.tokens (.node 114 [.leaf Tok.NUMBER (.number (c! "1") 1),
    .leaf Tok.DOT .none, .leaf Tok.NUMBER (.number (c! "1") 1)]) ∧ parseRealNumber 1 1 0 = 2 ∧ onePointOne.value = 11 / 10 :=
  ⟨derives_of_symbol (t := .node 114 [.leaf Tok.NUMBER (.number (c! "1") 1), .leaf Tok.DOT .none, .leaf Tok.NUMBER (.number (c! "1") 1)])
    (by decide +kernel), by decide +kernel, by decide +kernel⟩

theorem C21_false : ¬ C21_statement := by
  intro h
  have h1 := h onePointOne _ (by decide) C21_witness.1
  rw [C21_exactly_partial _ _ (by decide) C21_witness.1] at h1
  revert h1
  decide +kernel

/-- The value assigned first. -/
def firstValue {R D : Type} (m : ModuleDefinition R D) : Option (Value R) :=
  match m.moduleBody.assignmentList with
  | Assignment.value _ _ v :: _ => some v
  | _ => none

/-- From the text: `1.1` and `1.10` are 2, `1.05` is 1.5. -/
theorem C21_texts :
    (module? (parseString asciiUnicode (c! "M DEFINITIONS ::= BEGIN r REAL ::= 1.1 END"))).map firstValue = some (some (.real (.lit 1 1 0))) ∧
    (module? (parseString asciiUnicode (c! "M DEFINITIONS ::= BEGIN r REAL ::= 1.10 END"))).map firstValue = some (some (.real (.lit 1 10 0))) ∧
    (module? (parseString asciiUnicode (c! "M DEFINITIONS ::= BEGIN r REAL ::= 1.05 END"))).map firstValue = some (some (.real (.lit 1 5 0))) ∧
    GoReal.value (.lit 1 1 0) = some 2 ∧ GoReal.value (.lit 1 10 0) = some 2 ∧ GoReal.value (.lit 1 5 0) = some (3 / 2) := by
  refine ⟨?_, ?_, ?_, ?_, ?_, ?_⟩ <;> decide +kernel

end Asn1go.Props
