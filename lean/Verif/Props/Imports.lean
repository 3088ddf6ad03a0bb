import Verif.Proofs.Imports
import Verif.Props.Notation

/-! C26: imports from several modules. -/

namespace Asn1go.Props

open Asn1go Spec LR Spec.Notation Asn1go.Imports

/-- Not every list of imports is accepted: here two modules without identifiers. -/
theorem C26_false : ¬ ∀ (u : Unicode) (text : Str) (header exports : List Token) (l : List Import) (assignments : List Token)
    (x : List (Assignment DefinedValue (Value DefinedValue))),
    HeaderText header → ExportsText exports → AssignmentsText .written true assignments x →
    Tokens u false text (importing header exports l assignments) → ∃ m, parseString u text = .ok m := by
  intro h
  obtain ⟨m, hm⟩ := h asciiUnicode (c! "M DEFINITIONS ::= BEGIN IMPORTS A FROM X B FROM Y; T ::= A END") _ []
    [⟨.type (c! "A"), [], c! "X", .none⟩, ⟨.type (c! "B"), [], c! "Y", .none⟩] _ _ (.mk (c! "M") _ _ _ _ _ _ .none .none .none) .none
    (.one _ _ (.type (c! "T") _ _ (.ref false (c! "A")))) ((tokenize_iff _ _ _).1 (by decide +kernel))
  have : (error? (parseString asciiUnicode (c! "M DEFINITIONS ::= BEGIN IMPORTS A FROM X B FROM Y; T ::= A END"))).isSome = true := by
    decide +kernel
  rw [hm] at this
  exact absurd this (by simp [error?])

/-- A list of imports is accepted exactly if all modules but the last have identifiers.  The rest of the module is what it
should be. -/
theorem C26_exact (u : Unicode) (text : Str) (header exports : List Token) (l : List Import) (assignments : List Token)
    (x : List (Assignment DefinedValue (Value DefinedValue))) (hh : HeaderText header) (he : ExportsText exports)
    (ha : AssignmentsText .written false assignments x) (ht : Tokens u false text (importing header exports l assignments)) :
    (∃ m, parseString u text = .ok m) ↔ ∀ y ∈ l.dropLast, y.identified ≠ .none := by
  rw [C63_accepted]
  constructor
  · rintro ⟨toks, m, ht', hm⟩ y hy hi
    rw [C11_unique u text _ _ ht' ht] at hm
    have hf := froms_of_importing hh he hm
    rcases hf with hl | ⟨s, hf⟩
    · cases l with
      | nil => simp at hy
      | cons z l => simp [Import.tokens] at hl
    · have := scan_imports l .no (.inl rfl) ⟨y, hy, hi⟩
      rcases froms_scan hf with h | h | ⟨_, h⟩ <;> rw [this] at h <;> cases h
  · intro hl
    obtain ⟨m, hm, _⟩ := importing_text hh he ha hl
    exact ⟨_, m, ht, hm⟩

/-- If all modules but the last have identifiers the imports are the ones written. -/
theorem C26_identified_partial (u : Unicode) (text : Str) (header exports : List Token) (l : List Import) (assignments : List Token)
    (x : List (Assignment DefinedValue (Value DefinedValue))) (hh : HeaderText header) (he : ExportsText exports)
    (ha : AssignmentsText .written true assignments x) (ht : Tokens u false text (importing header exports l assignments))
    (hl : ∀ y ∈ l.dropLast, y.identified ≠ .none) :
    ∃ m, parseString u text = .ok m ∧ m.moduleBody = { imports := l.map Import.meaning, assignmentList := x } := by
  obtain ⟨m, hm, hb⟩ := importing_text hh he ha hl
  exact ⟨m, C24_notation u text _ m ht hm, hb⟩

/-- Two modules, the first with identifier, the second without. -/
example : ∃ m, parseString asciiUnicode
      (c! "M DEFINITIONS ::= BEGIN EXPORTS ALL; IMPORTS A, b FROM X {1 2} C FROM Y; T ::= A END") = .ok m ∧
    m.moduleBody.imports = [⟨[.typeReference (c! "A"), .valueReference (c! "b")], ⟨c! "X", .objectIdentifier [{ id := 1 }, { id := 2 }]⟩⟩,
      ⟨[.typeReference (c! "C")], ⟨c! "Y", .nil⟩⟩] := by
  obtain ⟨m, h, e⟩ := C26_identified_partial asciiUnicode
    (c! "M DEFINITIONS ::= BEGIN EXPORTS ALL; IMPORTS A, b FROM X {1 2} C FROM Y; T ::= A END") _ _
    [⟨.type (c! "A"), [.value (c! "b")], c! "X", .numbers (c! "1", 1) [(c! "2", 2)]⟩, ⟨.type (c! "C"), [], c! "Y", .none⟩] _ _
    (.mk (c! "M") _ _ _ _ _ _ .none .none .none) .all (.one _ _ (.type (c! "T") _ _ (.ref false (c! "A"))))
    ((tokenize_iff _ _ _).1 (by decide +kernel)) (by simp)
  exact ⟨m, h, by rw [e]; rfl⟩

end Asn1go.Props
