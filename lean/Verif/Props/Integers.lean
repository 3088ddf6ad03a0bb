import Verif.Proofs.Codegen.Integers
import Verif.Props.Order

/-! How integers are represented concerns integers only (C89). -/

namespace Asn1go.Props

open Spec CG

/-- C89: `Generate` with `int64` and with `*big.Int` gives the same errors, or files that differ in integers only, or does not return in either case. -/
theorem C89_integers (u : Casing) (fuel : Nat) (pkg : Str) (m : Module) :
    (generateFile u fuel ⟨pkg, c! "int64"⟩ m = none ∧ generateFile u fuel ⟨pkg, c! "big.Int"⟩ m = none) ∨
      ∃ r r', generateFile u fuel ⟨pkg, c! "int64"⟩ m = some r ∧ generateFile u fuel ⟨pkg, c! "big.Int"⟩ m = some r' ∧ ResultBig u r r' := by
  unfold generateFile
  by_cases ha : m.tagDefault = TAGS_AUTOMATIC
  · rw [if_pos ha, if_pos ha]
    exact .inr ⟨_, _, rfl, rfl, .error _⟩
  · rw [if_neg ha, if_neg ha]
    have key := decls_big (c := ⟨u, fuel, m.tagDefault, m.moduleBody.assignmentList, []⟩) m.moduleBody.assignmentList
    simp only [withRepr, IntegerReprInt64, IntegerReprBigInt] at key ⊢
    revert key
    generalize generateDeclarations _ m.moduleBody.assignmentList = x
    generalize generateDeclarations _ m.moduleBody.assignmentList = y
    intro key
    cases key with
    | none => exact .inl ⟨rfl, rfl⟩
    | some a b l h =>
      refine .inr ?_
      simp only [errors_big]
      by_cases he : errorsOf l = []
      · rw [if_neg (not_not.2 he), if_neg (not_not.2 he)]
        refine ⟨_, _, rfl, rfl, ?_⟩
        have := required_big l []
        rw [List.filter_nil] at this
        rw [this]
        exact .ok _ _ _ _ h
      · rw [if_pos he, if_pos he]
        exact ⟨_, _, rfl, rfl, .error _⟩

/-- `A ::= SEQUENCE { a INTEGER OPTIONAL, b A2, c BIT STRING }`, `A2 ::= SEQUENCE OF INTEGER`, `x INTEGER ::= -3` -/
def countsModule : Module := moduleOf TAGS_IMPLICIT [
  .type (c! "A") (.sequence [.named (.mk (c! "a") (.integer [])) true none, comp (c! "b") (.ref (c! "A2")), comp (c! "c") (.bitString [])] []),
  .type (c! "A2") (.sequenceOf (.integer [])), .value (c! "x") (.integer []) (.number (-3))]

example : generateFile asciiCasing 6 ⟨[], c! "int64"⟩ countsModule = some (.ok ⟨c! "My_Mod", [.imp (c! "encoding/asn1"),
      .type [⟨c! "A", false, .struct [.mk (c! "A") (.ident (c! "int64")) (some (c! "`asn1:\"optional\"`")), .mk (c! "B") (.ident (c! "A2")) none,
        .mk (c! "C") (.ident (c! "asn1.BitString")) none]⟩],
      .type [⟨c! "A2", true, .array (.ident (c! "int64"))⟩], .var [⟨c! "ValX", .ident (c! "int64"), .lit (c! "-3")⟩]]⟩) ∧
    generateFile asciiCasing 6 ⟨[], c! "big.Int"⟩ countsModule = some (.ok ⟨c! "My_Mod", [.imp (c! "math/big"), .imp (c! "encoding/asn1"),
      .type [⟨c! "A", false, .struct [.mk (c! "A") (.star (.ident (c! "big.Int"))) (some (c! "`asn1:\"optional\"`")), .mk (c! "B") (.ident (c! "A2")) none,
        .mk (c! "C") (.ident (c! "asn1.BitString")) none]⟩],
      .type [⟨c! "A2", true, .array (.star (.ident (c! "big.Int")))⟩],
      .var [⟨c! "ValX", .star (.ident (c! "big.Int")), .call (c! "big.NewInt") (.lit (c! "-3"))⟩]]⟩) := ⟨rfl, rfl⟩

end Asn1go.Props
