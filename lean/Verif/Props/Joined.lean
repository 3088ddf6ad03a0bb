import Verif.Props.Notation

/-! Assignments of two modules in one (C92). -/

namespace Asn1go.Props

open Asn1go Spec LR Spec.Notation Asn1go.Notation

variable {R D : Type} {L : Links R D} {simple : Bool}

theorem assignments_join {a b : List Token} {l k : List (Assignment R D)} (ha : AssignmentsText L simple a l) (hb : AssignmentsText L simple b k) :
    AssignmentsText L simple (a ++ b) (l ++ k) := by
  induction hb with
  | one b x h => exact .snoc _ _ _ _ ha h
  | snoc b c k x _ h ih => rw [← List.append_assoc, ← List.append_assoc]; exact .snoc _ _ _ _ ih h

theorem split_once {x : Token} : ∀ {a b c d : List Token}, x ∉ a → x ∉ b → a ++ x :: c = b ++ x :: d → a = b ∧ c = d
  | [], [], _, _, _, _, h => ⟨rfl, (List.cons.inj h).2⟩
  | [], _ :: _, _, _, _, hb, h => absurd ((List.cons.inj h).1 ▸ List.mem_cons_self) hb
  | _ :: _, [], _, _, ha, _, h => absurd ((List.cons.inj h).1 ▸ List.mem_cons_self) ha
  | y :: a, z :: b, c, d, ha, hb, h => by
    obtain ⟨h1, h2⟩ := List.cons.inj h
    obtain ⟨h3, h4⟩ := split_once (fun h' => ha (List.mem_cons_of_mem _ h')) (fun h' => hb (List.mem_cons_of_mem _ h')) h2
    exact ⟨by rw [h1, h3], h4⟩

theorem definitives_begin {a l} (h : DefinitivesText a l) : kw Tok.BEGIN ∉ a := by
  have h1 : ∀ {a x}, DefinitiveText a x → kw Tok.BEGIN ∉ a := by
    intro a x h
    cases h <;> simp [kw, lower, num, Tok.BEGIN, Tok.VALUEIDENTIFIER, Tok.NUMBER, Tok.OPEN_ROUND, Tok.CLOSE_ROUND]
  induction h with
  | one a x h => exact h1 h
  | cons a b x l h _ ih => rw [List.mem_append]; exact fun h' => h'.elim (h1 h) ih

theorem identifier_begin {a l} (h : Notation.IdentifierText a l) : kw Tok.BEGIN ∉ a := by
  cases h with
  | none => simp
  | some a l h =>
    have := definitives_begin h
    simp [this, kw, Tok.BEGIN, Tok.OPEN_CURLY, Tok.CLOSE_CURLY] at this ⊢

theorem tags_begin {a g} (h : TagsText a g) : kw Tok.BEGIN ∉ a := by cases h <;> decide

theorem extensibility_begin {a g} (h : ExtensibilityText a g) : kw Tok.BEGIN ∉ a := by cases h <;> decide

/-- What stands before and after `BEGIN`. -/
theorem module_split {h e : List Token} {n : ModuleDefinition R D} (hn : kw Tok.BEGIN ∉ h) (ht : ModuleText L simple (h ++ kw Tok.BEGIN :: (e ++ [kw Tok.END])) n) :
    ModuleBodyText L simple e n.moduleBody ∧ ∀ e' m, ModuleBodyText L simple e' m →
      ModuleText L simple (h ++ kw Tok.BEGIN :: (e' ++ [kw Tok.END])) { n with moduleBody := m } := by
  generalize htk : h ++ kw Tok.BEGIN :: (e ++ [kw Tok.END]) = toks at ht
  cases ht with
  | mk s a b d e1 i g x m h1 h2 h3 h4 =>
    have e2 : upper s :: (a ++ kw Tok.DEFINITIONS :: (b ++ (d ++ kw Tok.ASSIGNMENT :: kw Tok.BEGIN :: (e1 ++ [kw Tok.END])))) =
      (upper s :: (a ++ kw Tok.DEFINITIONS :: (b ++ (d ++ [kw Tok.ASSIGNMENT])))) ++ kw Tok.BEGIN :: (e1 ++ [kw Tok.END]) := by simp
    rw [e2] at htk
    have hp : kw Tok.BEGIN ∉ upper s :: (a ++ kw Tok.DEFINITIONS :: (b ++ (d ++ [kw Tok.ASSIGNMENT]))) := by
      have := identifier_begin h1
      have := tags_begin h2
      have := extensibility_begin h3
      simp only [List.mem_cons, List.mem_append, not_or]
      refine ⟨?_, ‹_›, ?_, ‹_›, ‹_›, ?_, ?_⟩ <;> simp [kw, upper, Tok.BEGIN, Tok.TYPEORMODULEREFERENCE, Tok.DEFINITIONS, Tok.ASSIGNMENT]
    obtain ⟨rfl, h5⟩ := split_once hn hp htk
    obtain ⟨h5, _⟩ := List.append_inj' h5 rfl
    subst h5
    refine ⟨h4, fun e' m hm => ?_⟩
    have := ModuleText.mk (L := L) (simple := simple) s a b d e' i g x m h1 h2 h3 hm
    simpa using this

/-- A body that does not start with exports or imports and is not empty has assignments only. -/
theorem body_assignments {e : List Token} {m : ModuleBody R D} (h : ModuleBodyText L simple e m) (h0 : e ≠ []) (h1 : e.head? ≠ some (kw Tok.EXPORTS))
    (h2 : e.head? ≠ some (kw Tok.IMPORTS)) : AssignmentsText L simple e m.assignmentList := by
  cases h with
  | empty => exact absurd rfl h0
  | some a b d i l ha hb hd =>
    cases ha with
    | none =>
      cases hb with
      | none => exact hd
      | _ => exact absurd rfl h2
    | _ => exact absurd rfl h1

/-- A body with further assignments. -/
theorem body_join {e a : List Token} {m : ModuleBody R D} {l : List (Assignment R D)} (h : ModuleBodyText L simple e m) (ha : AssignmentsText L simple a l) :
    ModuleBodyText L simple (e ++ a) { m with assignmentList := m.assignmentList ++ l } := by
  cases h with
  | empty => exact .some [] [] _ _ _ .none .none ha
  | some b c d i k hb hc hd =>
    have := ModuleBodyText.some b c (d ++ a) i (k ++ l) hb hc (assignments_join hd ha)
    simpa using this

/-- The module without what `DEFAULT` values and the first references of object identifier values are. -/
def unpointed (m : Module) : ModuleDefinition Unit Unit := m.map (fun _ => ()) (fun _ => ())

/-- C92: if texts of two modules are accepted, and the second has assignments only, then the text of the first with the assignments of the second put after its own is
accepted, and gives the first module with the assignments of the second after its own (up to what pointers point to, cf. C05, C06). -/
theorem C92_joined (u u' u'' : Unicode) (text text' text'' : Str) (h h' a b : List Token) (m m' : Module)
    (hh : kw Tok.BEGIN ∉ h) (hh' : kw Tok.BEGIN ∉ h') (hb : b ≠ []) (hx : b.head? ≠ some (kw Tok.EXPORTS)) (hi : b.head? ≠ some (kw Tok.IMPORTS))
    (ht : Tokens u false text (h ++ kw Tok.BEGIN :: (a ++ [kw Tok.END]))) (ht' : Tokens u' false text' (h' ++ kw Tok.BEGIN :: (b ++ [kw Tok.END])))
    (ht'' : Tokens u'' false text'' (h ++ kw Tok.BEGIN :: ((a ++ b) ++ [kw Tok.END])))
    (hm : parseString u text = .ok m) (hm' : parseString u' text' = .ok m') :
    ∃ m'', parseString u'' text'' = .ok m'' ∧ unpointed m'' = { unpointed m with
      moduleBody := ⟨(unpointed m).moduleBody.assignmentList ++ (unpointed m').moduleBody.assignmentList, (unpointed m).moduleBody.imports⟩ } := by
  have key : ∀ {u text m toks}, Tokens u false text toks → parseString u text = .ok m →
      ∃ n : ModuleDefinition Ref (Value DefinedValue), ModuleText .marked false toks n ∧ unpointed m = n.map (fun _ => ()) (fun _ => ()) := by
    intro u text m toks ht hm
    obtain ⟨toks', n, m0, ht', hn, rfl, e⟩ := C63_returned u text m hm
    rw [ht'.det ht] at hn
    refine ⟨n, hn, ?_⟩
    have := congrArg (ModuleDefinition.map (fun _ => ()) (fun _ => ())) e
    rw [ModuleDefinition.map_map, ModuleDefinition.map_map] at this
    rw [unpointed, ModuleDefinition.map_map]
    exact this
  obtain ⟨n, hn, en⟩ := key ht hm
  obtain ⟨n', hn', en'⟩ := key ht' hm'
  obtain ⟨hb1, hb2⟩ := module_split hh hn
  obtain ⟨hb1', _⟩ := module_split hh' hn'
  have hj := hb2 _ _ (body_join hb1 (body_assignments hb1' hb hx hi))
  obtain ⟨m'', m0, hm'', e1, e2⟩ := C24_notation_general u'' text'' _ _ ht'' hj
  obtain ⟨n'', hn'', en''⟩ := key ht'' hm''
  rw [C63_determined _ _ _ _ _ _ _ hn'' hj] at en''
  refine ⟨m'', hm'', ?_⟩
  rw [en'', en, en']
  simp [ModuleDefinition.map, ModuleBody.map]

/-! ### A case -/

def firstText : Str := c! "M DEFINITIONS IMPLICIT TAGS ::= BEGIN IMPORTS X FROM N; v INTEGER ::= 5 END"

def secondText : Str := c! "N { iso 3 } DEFINITIONS ::= BEGIN E ::= SET OF A END"

def joinedText : Str := c! "M DEFINITIONS IMPLICIT TAGS ::= BEGIN IMPORTS X FROM N; v INTEGER ::= 5 E ::= SET OF A END"

/-- The hypotheses of `C92_joined` hold. -/
theorem joined_meets : ∃ h h' a b, kw Tok.BEGIN ∉ h ∧ kw Tok.BEGIN ∉ h' ∧ b ≠ [] ∧ b.head? ≠ some (kw Tok.EXPORTS) ∧ b.head? ≠ some (kw Tok.IMPORTS) ∧
    Tokens asciiUnicode false firstText (h ++ kw Tok.BEGIN :: (a ++ [kw Tok.END])) ∧ Tokens asciiUnicode false secondText (h' ++ kw Tok.BEGIN :: (b ++ [kw Tok.END])) ∧
    Tokens asciiUnicode false joinedText (h ++ kw Tok.BEGIN :: ((a ++ b) ++ [kw Tok.END])) := by
  exact ⟨[upper (c! "M"), kw Tok.DEFINITIONS, kw Tok.IMPLICIT, kw Tok.TAGS, kw Tok.ASSIGNMENT],
    [upper (c! "N"), kw Tok.OPEN_CURLY, lower (c! "iso"), num (c! "3") 3, kw Tok.CLOSE_CURLY, kw Tok.DEFINITIONS, kw Tok.ASSIGNMENT],
    [kw Tok.IMPORTS, upper (c! "X"), kw Tok.FROM, upper (c! "N"), kw Tok.SEMICOLON, lower (c! "v"), kw Tok.INTEGER, kw Tok.ASSIGNMENT, num (c! "5") 5],
    [upper (c! "E"), kw Tok.ASSIGNMENT, kw Tok.SET, kw Tok.OF, upper (c! "A")], by decide, by decide, by decide, by decide, by decide,
    (tokenize_iff _ _ _).1 (by decide +kernel), (tokenize_iff _ _ _).1 (by decide +kernel), (tokenize_iff _ _ _).1 (by decide +kernel)⟩

example : ((module? (parseString asciiUnicode firstText)).map fun m => m.moduleBody.assignmentList.map Assignment.name) = some [c! "v"] ∧
    ((module? (parseString asciiUnicode secondText)).map fun m => m.moduleBody.assignmentList.map Assignment.name) = some [c! "E"] ∧
    ((module? (parseString asciiUnicode joinedText)).map fun m => m.moduleBody.assignmentList.map Assignment.name) = some [c! "v", c! "E"] := by
  decide +kernel

end Asn1go.Props
