import Verif.Proofs.LR.Reworded
import Verif.Proofs.LR.Codes
import Verif.Props.Exact
import Verif.Props.Renamed

/-! Texts that differ in names only (C90), and texts that differ in names and numbers only (C91). -/

namespace Asn1go.Props

open Spec LR CG

/-! ### C91: names and numbers do not decide whether a text is accepted -/

/-- C91: of two texts whose tokens have the same codes either both are accepted or both are rejected, with the same message. -/
theorem C91_codes (u u' : Unicode) (text text' : Str) (toks toks' : List Token) (h : Tokens u false text toks) (h' : Tokens u' false text' toks')
    (hc : toks.map Prod.fst = toks'.map Prod.fst) :
    (∃ m m', parseString u text = .ok m ∧ parseString u' text' = .ok m') ∨ ∃ line line' msg, parseString u text = .err line msg ∧ parseString u' text' = .err line' msg :=
  parse_alike u u' text text' toks toks' h h' hc

/-! ### C90: other names in a text are other names in the module -/

theorem parse_reworded {u u' : Unicode} {text text' : Str} {toks : List Token} {f : Str → Str} (hf : Rewording f) (h : Tokens u false text toks)
    (h' : Tokens u' false text' (toks.map (newToken f))) {m : Module} (hm : parseString u text = .ok m) : parseString u' text' = .ok (reworded f m) := by
  obtain ⟨toks', t, ht, hd, hp, rfl⟩ := (C07_module u text m).1 hm
  obtain rfl : toks' = toks := ht.det h
  exact (C07_module u' text' _).2 ⟨_, _, h', derives_new f hd, preferred_new f t _ _ hp, (exact_new hf hd).symm⟩

/-- C90: if the tokens of one text are those of another with every name `w` replaced by `f w`, then the module parsed from it is the other module with every name `w`
replaced by `f w`, or both texts are rejected with the same message. -/
theorem C90_reworded (u u' : Unicode) (text text' : Str) (toks : List Token) (f : Str → Str) (hf : Rewording f) (h : Tokens u false text toks)
    (h' : Tokens u' false text' (toks.map (newToken f))) :
    (∃ m, parseString u text = .ok m ∧ parseString u' text' = .ok (reworded f m)) ∨
      ∃ line line' msg, parseString u text = .err line msg ∧ parseString u' text' = .err line' msg := by
  have hc : toks.map Prod.fst = (toks.map (newToken f)).map Prod.fst := by
    rw [List.map_map]
    exact List.map_congr_left fun t _ => (newToken_code f t).symm
  rcases C91_codes u u' text text' _ _ h h' hc with ⟨m, _, hm, _⟩ | he
  · exact .inl ⟨m, hm, parse_reworded hf h h' hm⟩
  · exact .inr he

/-! ### Such modules are renamed in the sense of C88 -/

section

variable {f : Str → Str} (he : ∀ n, f n = [] ↔ n = [])

theorem numbers_reworded (he : ∀ n, f n = [] ↔ n = []) : ∀ l : List NamedNumber, List.Forall₂ (NumberRenamed f f) l (l.map (newNumber f))
  | [] => .nil
  | ⟨n, .number x⟩ :: l => .cons (.number n x) (numbers_reworded he l)
  | ⟨n, .defined ⟨m, v⟩⟩ :: l => .cons (.defined n v m (f m) (he m).symm) (numbers_reworded he l)
  | ⟨n, .nil⟩ :: l => .cons (.nil n) (numbers_reworded he l)

theorem value_reworded (v : Value DefinedValue) : ValueAs v (newValue f (newDefined f) v) := by
  cases v with
  | number n => exact .number n
  | boolean b => exact .boolean b
  | real x => exact .real x
  | _ => exact .other _ _ nofun nofun nofun nofun nofun nofun

theorem default_reworded (d : Option (Value DefinedValue)) : DefaultAs d (d.map (newValue f (newDefined f))) := by
  cases d with
  | none => exact .none
  | some v => exact .some _ _ (value_reworded v)

include he

mutual

theorem ty_reworded : ∀ t : MTy, TyRenamed f f t (newTy f (newDefined f) (newValue f (newDefined f)) t)
  | .integer l => by rw [newTy]; exact .integer _ _ (numbers_reworded he l)
  | .choice l e => by rw [newTy]; exact .choice _ _ _ _ (alts_reworded l)
  | .sequence a b => by rw [newTy]; exact .sequence _ _ _ _ (components_reworded a) (components_reworded b)
  | .set a b => by rw [newTy]; exact .set _ _ _ _ (components_reworded a) (components_reworded b)
  | .tagged g t k h => by rw [newTy]; exact .tagged _ _ _ _ _ _ _ (value_reworded _) (ty_reworded t)
  | .sequenceOf t => by rw [newTy]; exact .sequenceOf _ _ (ty_reworded t)
  | .setOf t => by rw [newTy]; exact .setOf _ _ (ty_reworded t)
  | .constrained t c => by rw [newTy]; exact .constrained _ _ _ _ (ty_reworded t)
  | .ref n => by rw [newTy]; exact .ref n
  | .boolean | .characterString | .real | .octetString | .restrictedString _ | .bitString _ | .enumerated _ _ | .any _ | .objectIdentifier | .null | .nil | .named _ => by
    simp only [newTy]; constructor

theorem alts_reworded : ∀ l : List MNamed, AltsRenamed f f l (newNameds f (newDefined f) (newValue f (newDefined f)) l)
  | [] => by rw [newNameds]; exact .nil
  | .mk n t :: l => by rw [newNameds, newNamed]; exact .cons _ _ _ _ _ _ (ty_reworded t) (alts_reworded l)

theorem components_reworded : ∀ l : List MComponent, ComponentsRenamed f f l (newComponents f (newDefined f) (newValue f (newDefined f)) l)
  | [] => by rw [newComponents]; exact .nil
  | .named (.mk n t) o d :: l => by
    rw [newComponents, newComponent, newNamed]; exact .named _ _ _ _ _ _ _ _ (ty_reworded t) (default_reworded d) (components_reworded l)
  | .componentsOf t :: l => by rw [newComponents, newComponent]; exact .componentsOf _ _ _ _ (components_reworded l)
  | .nil :: l => by rw [newComponents, newComponent]; exact .absent _ _ (components_reworded l)

end

theorem assignments_reworded : ∀ l : List MAssignment, .nil ∉ l →
    List.Forall₂ (AssignmentRenamed f f) l (l.map (newAssignment f (newDefined f) (newValue f (newDefined f))))
  | [], _ => .nil
  | .type n t :: l, h => .cons (.type n _ _ (ty_reworded he t)) (assignments_reworded l fun hh => h (List.mem_cons_of_mem _ hh))
  | .value n t v :: l, h => .cons (.value n _ _ _ _ (ty_reworded he t) (value_reworded v)) (assignments_reworded l fun hh => h (List.mem_cons_of_mem _ hh))
  | .nil :: _, h => absurd List.mem_cons_self h

end

/-- C90 for files: other names in a text are other names in the generated file.  `f` must leave "no name" and the names of the time types as they are, and give different
names to different names. -/
theorem C90_generated (u : Casing) (text text' : Str) (toks : List Token) (f : Str → Str) (hf : Rewording f) (hi : Function.Injective f)
    (h : Tokens u.toUnicode false text toks) (h' : Tokens u.toUnicode false text' (toks.map (newToken f))) (fuel : Nat) (p : GenParams) :
    (∃ line line' msg, parseString u.toUnicode text = .err line msg ∧ parseString u.toUnicode text' = .err line' msg) ∨
    ∃ m m', parseString u.toUnicode text = .ok m ∧ parseString u.toUnicode text' = .ok m' ∧
      ((generateFile u fuel p m = none ∧ generateFile u fuel p m' = none) ∨
        ∃ r r', generateFile u fuel p m = some r ∧ generateFile u fuel p m' = some r' ∧ ResultRenamed f f u r r') := by
  rcases C90_reworded _ _ text text' toks f hf h h' with ⟨m, hm, hm'⟩ | he
  · have hn : ∀ n, f n = [] ↔ n = [] := fun n => ⟨fun e => hi (e.trans hf.empty.symm), fun e => by rw [e, hf.empty]⟩
    exact .inr ⟨m, _, hm, hm', C88_renamed u fuel p f f ⟨hi, hf.generalized, hf.utc⟩ _ _ ⟨rfl, assignments_reworded hn _ (complete_parsed hm)⟩⟩
  · exact .inl he

/-! ### A case -/

/-- `B` becomes `Count`, and `a-b` becomes `x`; and the other way round. -/
def otherWords (n : Str) : Str := swapped (c! "B") (c! "Count") (swapped (c! "a-b") (c! "x") n)

theorem otherWords_injective : Function.Injective otherWords := (swapped_injective _ _).comp (swapped_injective _ _)

example : Rewording otherWords := ⟨by decide, by decide, by decide⟩

def oneText : Str := c! "M DEFINITIONS ::= BEGIN A ::= SEQUENCE { a-b [1] B DEFAULT 5, c GeneralizedTime } B ::= INTEGER { f(1) } v B ::= f END"

def otherText : Str := c! "M DEFINITIONS ::= BEGIN A ::= SEQUENCE { x [1] Count DEFAULT 5, c GeneralizedTime } Count ::= INTEGER { f(1) } v Count ::= f END"

theorem case_tokens : ((tokenize asciiUnicode oneText).map fun l => l.map (newToken otherWords)) = tokenize asciiUnicode otherText ∧
    ((tokenize asciiUnicode oneText).map List.length) = some 33 := by decide +kernel

/-- The hypotheses of `C90_reworded` and `C90_generated` hold. -/
theorem case_meets : ∃ toks, Tokens asciiUnicode false oneText toks ∧ Tokens asciiUnicode false otherText (toks.map (newToken otherWords)) := by
  obtain ⟨h1, h2⟩ := case_tokens
  cases h : tokenize asciiUnicode oneText with
  | none => rw [h] at h2; cases h2
  | some toks =>
    rw [h] at h1
    exact ⟨toks, (tokenize_iff _ _ _).1 h, (tokenize_iff _ _ _).1 h1.symm⟩

/-- The names of the types of components of all types, for the case. -/
def wordsOf (m : Module) : List (List Str) := m.moduleBody.assignmentList.map fun
  | .type n (.sequence l _) => n :: l.flatMap fun
    | .named (.mk i (.tagged _ (.ref r) _ _)) _ _ => [i, r]
    | .named (.mk i (.ref r)) _ _ => [i, r]
    | _ => []
  | .type n (.ref r) => [n, r]
  | .type n _ => [n]
  | .value n (.ref r) (.identifiedInteger w) => [n, r, w]
  | _ => []

example : (module? (parseString asciiUnicode oneText)).map wordsOf =
      some [[c! "A", c! "a-b", c! "B", c! "c", c! "GeneralizedTime"], [c! "B"], [c! "v", c! "B", c! "f"]] ∧
    (module? (parseString asciiUnicode otherText)).map wordsOf =
      some [[c! "A", c! "x", c! "Count", c! "c", c! "GeneralizedTime"], [c! "Count"], [c! "v", c! "Count", c! "f"]] := by decide +kernel

/-- For C91: names and numbers differ, and the message is the same. -/
example : error? (parseString asciiUnicode (c! "A DEFINITIONS ::= BEGIN a INTEGER ::= 5 5 END")) =
    error? (parseString asciiUnicode (c! "Mod DEFINITIONS ::= BEGIN one INTEGER ::= 12 3 END")) ∧
    (error? (parseString asciiUnicode (c! "A DEFINITIONS ::= BEGIN a INTEGER ::= 5 5 END"))).isSome = true ∧
    (tokenize asciiUnicode (c! "A DEFINITIONS ::= BEGIN a INTEGER ::= 5 5 END")).map (fun l => l.map Prod.fst) =
      (tokenize asciiUnicode (c! "Mod DEFINITIONS ::= BEGIN one INTEGER ::= 12 3 END")).map fun l => l.map Prod.fst := by decide +kernel

/-! ### The conditions are needed -/

/-- The names of the time types must stay, because they are also keywords: in `A ::= GeneralizedTime` there is no name to replace but `M` and `A`. -/
theorem C90_time_needed : ∃ f text toks m m', Function.Injective f ∧ f [] = [] ∧ Tokens asciiUnicode false text toks ∧
    Tokens asciiUnicode false text (toks.map (newToken f)) ∧ parseString asciiUnicode text = .ok m ∧ parseString asciiUnicode text = .ok m' ∧ m' ≠ reworded f m := by
  have h0 : ((tokenize asciiUnicode (c! "M DEFINITIONS ::= BEGIN A ::= GeneralizedTime END")).map fun l => l.map (newToken (swapped (c! "GeneralizedTime") (c! "B")))) =
      tokenize asciiUnicode (c! "M DEFINITIONS ::= BEGIN A ::= GeneralizedTime END") ∧
      (module? (parseString asciiUnicode (c! "M DEFINITIONS ::= BEGIN A ::= GeneralizedTime END"))).map wordsOf = some [[c! "A", c! "GeneralizedTime"]] ∧
      (module? (parseString asciiUnicode (c! "M DEFINITIONS ::= BEGIN A ::= GeneralizedTime END"))).map
        (fun m => wordsOf (reworded (swapped (c! "GeneralizedTime") (c! "B")) m)) = some [[c! "A", c! "B"]] := by decide +kernel
  obtain ⟨h1, h2, h3⟩ := h0
  cases hm : parseString asciiUnicode (c! "M DEFINITIONS ::= BEGIN A ::= GeneralizedTime END") with
  | ok m =>
    rw [hm] at h2 h3
    obtain ⟨toks, _, ht, _⟩ := C03_sound _ _ _ hm
    refine ⟨_, _, toks, m, m, swapped_injective (c! "GeneralizedTime") (c! "B"), by decide, ht, ?_, hm, hm, fun e => ?_⟩
    · rw [(tokenize_iff _ _ _).2 ht] at h1
      exact (tokenize_iff _ _ _).1 (by rw [(tokenize_iff _ _ _).2 ht, ← h1]; rfl)
    · have h2 : wordsOf m = _ := Option.some.inj h2
      have h3 : wordsOf (reworded _ m) = _ := Option.some.inj h3
      rw [← e, h2] at h3
      revert h3
      decide
  | _ => rw [hm] at h2; cases h2

end Asn1go.Props
