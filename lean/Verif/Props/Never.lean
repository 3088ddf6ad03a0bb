import Verif.Props.Interface
import Verif.Proofs.Decoding.Never

/-! Types of which encoding/asn1 reads nothing: C82. -/

namespace Asn1go.Props

open Spec CG Enco Deco

/-- Of REAL, of lists of REAL or of CHOICE types held in interfaces, and of types that need values of such types, nothing is ever read. -/
theorem C82_never (u : Casing) (fuel : Nat) (p : GenParams) (m : Module) (f : GoFile) (h : generateFile u fuel p m = some (.ok f))
    (hn : NamesOk u m.moduleBody.assignmentList) (hv : NoValName m.moduleBody.assignmentList) (a : Str)
    (ht : NeverRead m.moduleBody.assignmentList (.ref a)) (bs : Bytes) (v : GoVal) (rest : Bytes) :
    ¬ Unmarshals f u (.ident (goifyName u a)) bs v rest := by
  have cx := context (strict := false) (op := .none) (s := fun _ => False) h hn (fun _ hb => hb.elim)
  cases ht with
  | ref _ t ha ht =>
    obtain ⟨n, k, h1, h2⟩ := under_ref cx ha (pos := .assignment) (.inl rfl) (P := fun _ k => NothingRead u f k) (fun _ _ _ h => h)
      (fun e he => by
        obtain ⟨n, k, h1, h2, h3⟩ := never_kind cx (generated_predeclared h hn) (C67_distinct_partial u fuel p m f h hn.named hn.noSetClash hv)
          (fun sp hs => (not_declared cx (n := sp.name) hs).2) ht e he
        exact ⟨n, k, h1, h2, fun _ _ => h3⟩) (.inr rfl)
    exact h2 n (.inl rfl) _ _ _ _ _ _ h1 rfl

/-- `A ::= SEQUENCE { a REAL }` -/
def measure : MTy := .sequence [comp (c! "a") .real] []

theorem measure_names : NamesOk asciiCasing [.type (c! "A") measure] :=
  one_names (by intro nums h; cases h) (one_member (by rintro a b (hi | hi) <;> cases hi))

/-- No value of `A ::= SEQUENCE { a REAL }` is read, from any octets. -/
theorem C82_real (bs : Bytes) (v : GoVal) (rest : Bytes) :
    ¬ Unmarshals (fileA (.struct [.mk (c! "A") (.ident (c! "float64")) none]) false) asciiCasing (.ident (c! "A")) bs v rest :=
  C82_never asciiCasing 20 int64Params (moduleOf TAGS_IMPLICIT [.type (c! "A") measure]) _ rfl measure_names (by intro r hr; cases List.mem_singleton.1 (show r ∈ [c! "A"] from hr); decide) (c! "A")
    (.ref _ _ (one_assigned _) (.sequence _ _ ⟨c! "a", .real, false, none⟩ (by simp [comp, members]) rfl rfl .real)) bs v rest

/-- Lists of values held in interfaces are among these types. -/
theorem C82_never_list : NeverRead replies (.ref (c! "A")) :=
  .ref _ _ replies_A (.sequenceOf _ (.ref _ _ replies_C (.several _ _ replies_untagged (by simp [replyAlts]))))

end Asn1go.Props
