import Verif.Props.Joined
import Verif.Props.Order
import Verif.Props.Renamed

/-! Assignments put after those of a text, and the Go declarations of those before (C93). -/

namespace Asn1go.Props

open Asn1go Spec LR CG Spec.Notation Asn1go.Notation

/-- No component has a `DEFAULT`. -/
def NoDefaults (m : Module) : Prop := ∃ n : ModuleDefinition DefinedValue Empty, m = n.map id Empty.elim

/-- The tokens of a text, and those of the same text with assignments of another one put after its own; both are accepted.  No two assignments have the same name, and
those added are not of time types (cf. `C86_needed`). -/
structure TextAdded (u : Unicode) (text text' : Str) (m m' : Module) : Prop where
  parsed : parseString u text = .ok m
  parsed' : parseString u text' = .ok m'
  tokens : ∃ h a b other w, kw Tok.BEGIN ∉ h ∧ Tokens u false text (h ++ kw Tok.BEGIN :: (a ++ [kw Tok.END])) ∧
    Tokens u false text' (h ++ kw Tok.BEGIN :: ((a ++ b) ++ [kw Tok.END])) ∧ Tokens u false other (w ++ kw Tok.BEGIN :: (b ++ [kw Tok.END])) ∧
    kw Tok.BEGIN ∉ w ∧ b ≠ [] ∧ b.head? ≠ some (kw Tok.EXPORTS) ∧ b.head? ≠ some (kw Tok.IMPORTS) ∧ ∃ mo, parseString u other = .ok mo
  different : (m'.moduleBody.assignmentList.map Assignment.name).Nodup
  times : ∀ a ∈ m'.moduleBody.assignmentList, TimeName a.name → a.name ∈ m.moduleBody.assignmentList.map Assignment.name

/-- C93: all declarations for a text are made again if assignments are put after those of the text. -/
def C93_statement : Prop := ∀ (u : Casing) (k k' : Nat) (p : GenParams) (text text' : Str) (m m' : Module) (f f' : GoFile), TextAdded u.toUnicode text text' m m' →
  generateFile u k p m = some (.ok f) → generateFile u k' p m' = some (.ok f') → (ownDecls f).Sublist (ownDecls f') ∧ ∀ d ∈ f.decls, d ∈ f'.decls

/-! ### Without `DEFAULT` -/

theorem value_same {v w : Value DefinedValue} (h : w.map (fun _ => ()) = v.map (fun _ => ())) : ValueAs v w := by
  cases v with
  | number n => cases w <;> simp [Value.map] at h; subst h; exact .number _
  | boolean n => cases w <;> simp [Value.map] at h; subst h; exact .boolean _
  | real n => cases w <;> simp [Value.map] at h; subst h; exact .real _
  | _ => cases w <;> simp [Value.map] at h <;> exact .other _ _ nofun nofun nofun nofun nofun nofun

theorem numbers_same : ∀ l : List NamedNumber, List.Forall₂ (NumberRenamed id id) l l
  | [] => .nil
  | ⟨n, .number x⟩ :: l => .cons (.number n x) (numbers_same l)
  | ⟨n, .defined ⟨m, v⟩⟩ :: l => .cons (.defined n v m m Iff.rfl) (numbers_same l)
  | ⟨n, .nil⟩ :: l => .cons (.nil n) (numbers_same l)

mutual

theorem ty_same : ∀ (n : Ty DefinedValue Empty) (t : MTy), t.map (fun _ => ()) (fun _ => ()) = n.map (fun _ => ()) Empty.elim → TyRenamed id id (n.map id Empty.elim) t
  | .integer l, t, h => by
    cases t <;> simp [Ty.map] at h
    subst h
    rw [Ty.map]
    exact .integer _ _ (numbers_same _)
  | .choice a e, t, h => by
    cases t <;> simp [Ty.map] at h
    rw [Ty.map]
    exact .choice _ _ _ _ (alts_same a _ h.1)
  | .sequence a e, t, h => by
    cases t <;> simp [Ty.map] at h
    rw [Ty.map]
    exact .sequence _ _ _ _ (components_same a _ h.1) (components_same e _ h.2)
  | .set a e, t, h => by
    cases t <;> simp [Ty.map] at h
    rw [Ty.map]
    exact .set _ _ _ _ (components_same a _ h.1) (components_same e _ h.2)
  | .tagged ⟨c, v⟩ y k b, t, h => by
    cases t with
    | tagged g y' k' b' =>
      obtain ⟨c', v'⟩ := g
      simp [Ty.map, Tag.map] at h
      obtain ⟨⟨rfl, h1⟩, h2, rfl, rfl⟩ := h
      rw [Ty.map, Tag.map]
      exact .tagged _ _ _ _ _ _ _ (value_same (by simpa [Value.map_map] using h1)) (ty_same y _ h2)
    | _ => simp [Ty.map] at h
  | .sequenceOf y, t, h => by
    cases t <;> simp [Ty.map] at h
    rw [Ty.map]
    exact .sequenceOf _ _ (ty_same y _ h)
  | .setOf y, t, h => by
    cases t <;> simp [Ty.map] at h
    rw [Ty.map]
    exact .setOf _ _ (ty_same y _ h)
  | .constrained y c, t, h => by
    cases t <;> simp [Ty.map] at h
    rw [Ty.map]
    exact .constrained _ _ _ _ (ty_same y _ h.1)
  | .ref s, t, h => by
    cases t <;> simp [Ty.map] at h
    subst h
    rw [Ty.map]
    exact .ref _
  | .restrictedString s, t, h => by
    cases t <;> simp [Ty.map] at h
    subst h
    rw [Ty.map]
    exact .restrictedString _
  | .enumerated _ _, t, h => by cases t <;> simp [Ty.map] at h; rw [Ty.map]; constructor
  | .any _, t, h => by cases t <;> simp [Ty.map] at h; rw [Ty.map]; constructor
  | .bitString _, t, h => by cases t <;> simp [Ty.map] at h; rw [Ty.map]; constructor
  | .named _, t, h => by cases t <;> simp [Ty.map] at h; rw [Ty.map]; constructor
  | .nil, t, h => by cases t <;> simp [Ty.map] at h; rw [Ty.map]; constructor
  | .null, t, h => by cases t <;> simp [Ty.map] at h; rw [Ty.map]; constructor
  | .objectIdentifier, t, h => by cases t <;> simp [Ty.map] at h; rw [Ty.map]; constructor
  | .real, t, h => by cases t <;> simp [Ty.map] at h; rw [Ty.map]; constructor
  | .boolean, t, h => by cases t <;> simp [Ty.map] at h; rw [Ty.map]; constructor
  | .characterString, t, h => by cases t <;> simp [Ty.map] at h; rw [Ty.map]; constructor
  | .octetString, t, h => by cases t <;> simp [Ty.map] at h; rw [Ty.map]; constructor

theorem alts_same : ∀ (n : List (NamedType DefinedValue Empty)) (l : List MNamed),
    NamedType.mapList (fun _ => ()) (fun _ => ()) l = NamedType.mapList (fun _ => ()) Empty.elim n → AltsRenamed id id (NamedType.mapList id Empty.elim n) l
  | [], l, h => by
    cases l <;> simp [NamedType.mapList] at h
    rw [NamedType.mapList]
    exact .nil
  | .mk i y :: n, l, h => by
    cases l with
    | nil => simp [NamedType.mapList] at h
    | cons x l =>
      obtain ⟨i', y'⟩ := x
      simp [NamedType.mapList, NamedType.map] at h
      rw [NamedType.mapList, NamedType.map]
      exact .cons _ _ _ _ _ _ (ty_same y _ h.1.2) (alts_same n _ h.2)

theorem components_same : ∀ (n : List (ComponentType DefinedValue Empty)) (l : List MComponent),
    ComponentType.mapList (fun _ => ()) (fun _ => ()) l = ComponentType.mapList (fun _ => ()) Empty.elim n →
    ComponentsRenamed id id (ComponentType.mapList id Empty.elim n) l
  | [], l, h => by
    cases l <;> simp [ComponentType.mapList] at h
    rw [ComponentType.mapList]
    exact .nil
  | .named (.mk i y) o d :: n, l, h => by
    cases l with
    | nil => simp [ComponentType.mapList] at h
    | cons x l =>
      cases x with
      | named z o' d' =>
        obtain ⟨i', y'⟩ := z
        cases d with
        | some e => exact e.elim
        | none =>
          simp [ComponentType.mapList, ComponentType.map, NamedType.map] at h
          obtain ⟨⟨⟨rfl, h1⟩, rfl, rfl⟩, h2⟩ := h
          rw [ComponentType.mapList, ComponentType.map, NamedType.map]
          exact .named _ _ _ _ _ _ _ _ (ty_same y _ h1) .none (components_same n _ h2)
      | _ => simp [ComponentType.mapList, ComponentType.map] at h
  | .componentsOf y :: n, l, h => by
    cases l with
    | nil => simp [ComponentType.mapList] at h
    | cons x l =>
      cases x <;> simp [ComponentType.mapList, ComponentType.map] at h
      rw [ComponentType.mapList, ComponentType.map]
      exact .componentsOf _ _ _ _ (components_same n _ h.2)
  | .nil :: n, l, h => by
    cases l with
    | nil => simp [ComponentType.mapList] at h
    | cons x l =>
      cases x <;> simp [ComponentType.mapList, ComponentType.map] at h
      rw [ComponentType.mapList, ComponentType.map]
      exact .absent _ _ (components_same n _ h)

end

theorem assignments_same : ∀ (n : List (Assignment DefinedValue Empty)) (l : List MAssignment), .nil ∉ n →
    l.map (Assignment.map (fun _ => ()) (fun _ => ())) = n.map (Assignment.map (fun _ => ()) Empty.elim) →
    List.Forall₂ (AssignmentRenamed id id) (n.map (Assignment.map id Empty.elim)) l
  | [], l, _, h => by
    cases l <;> simp at h
    exact .nil
  | x :: n, [], _, h => by simp at h
  | x :: n, y :: l, hn, h => by
    simp only [List.map_cons, List.cons.injEq] at h
    refine .cons ?_ (assignments_same n l (fun hh => hn (List.mem_cons_of_mem _ hh)) h.2)
    cases x with
    | nil => exact absurd List.mem_cons_self hn
    | type r t =>
      cases y <;> simp [Assignment.map] at h
      obtain ⟨⟨rfl, h1⟩, _⟩ := h
      exact .type _ _ _ (ty_same _ _ h1)
    | value r t v =>
      cases y <;> simp [Assignment.map] at h
      obtain ⟨⟨rfl, h1, h2⟩, _⟩ := h
      exact .value _ _ _ _ _ (ty_same _ _ h1) (value_same (by simpa [Value.map_map] using h2))

mutual

theorem expr_same {u : Casing} : ∀ {e e' : GoExpr}, ExprRenamed id id u e e' → e = e'
  | _, _, .own _ _ => rfl
  | _, _, .type _ => rfl
  | _, _, .value _ => rfl
  | _, _, .nil => rfl
  | _, _, .star _ _ h => by rw [expr_same h]
  | _, _, .array _ _ h => by rw [expr_same h]
  | _, _, .iface => rfl
  | _, _, .struct _ _ h => by rw [fields_same h]
  | _, _, .lit _ => rfl
  | _, _, .real _ => rfl
  | _, _, .call _ _ _ h => by rw [expr_same h]

theorem fields_same {u : Casing} : ∀ {l l' : List GoField}, FieldsRenamed id id u l l' → l = l'
  | _, _, .nil => rfl
  | _, _, .cons _ _ _ _ _ _ h hl => by rw [expr_same h, fields_same hl]; rfl

end

theorem decl_same {u : Casing} {d d' : GoDecl} (h : DeclRenamed id id u d d') : d = d' := by
  cases h with
  | type n a e e' h => rw [expr_same h]; rfl
  | set n e e' h => rw [expr_same h]; rfl
  | value n t t' e h => rw [expr_same h]; rfl
  | imp p => rfl
  | numbers n l l' h =>
    have : l = l' := List.forall₂_eq_eq_eq ▸ h.imp (fun a b hab => by cases hab with | mk k e e' h => rw [expr_same h]; rfl)
    rw [this]

theorem assignment_forget (x : Assignment DefinedValue Empty) :
    (x.map id (Empty.elim : Empty → Value DefinedValue)).map (fun _ => ()) (fun _ => ()) = x.map (fun _ => ()) (Empty.elim : Empty → Unit) := by
  rw [Assignment.map_map]

/-- C93 where it holds: if the text has no `DEFAULT`.  Missing: texts with `DEFAULT`, for which it is false. -/
theorem C93_added_partial (u : Casing) (k k' : Nat) (p : GenParams) (text text' : Str) (m m' : Module) (f f' : GoFile) (ht : TextAdded u.toUnicode text text' m m')
    (hd : NoDefaults m) (hf : generateFile u k p m = some (.ok f)) (hf' : generateFile u k' p m' = some (.ok f')) :
    (ownDecls f).Sublist (ownDecls f') ∧ ∀ d ∈ f.decls, d ∈ f'.decls := by
  obtain ⟨h, a, b, other, w, h1, h2, h3, h4, h5, h6, h7, h8, mo, h9⟩ := ht.tokens
  obtain ⟨m2, e1, e2⟩ := C92_joined _ _ _ text other text' h w a b m mo h1 h5 h6 h7 h8 h2 h4 h3 ht.parsed h9
  rw [ht.parsed', ParseResult.ok.injEq] at e1
  subst e1
  have el := congrArg (fun x => x.moduleBody.assignmentList) e2
  have et : m'.tagDefault = m.tagDefault := congrArg (fun x => x.tagDefault) e2
  simp only [unpointed, ModuleDefinition.map, ModuleBody.map] at el
  obtain ⟨l1, l2, hl, hl1, hl2⟩ := List.map_eq_append_iff.1 el
  obtain ⟨n, rfl⟩ := hd
  have hn : Assignment.nil ∉ n.moduleBody.assignmentList := fun hh => complete_parsed ht.parsed (by
    exact List.mem_map.2 ⟨_, hh, rfl⟩)
  let m1 : Module := { m' with moduleBody := { m'.moduleBody with assignmentList := l1 } }
  have hr : ModuleRenamed id id (n.map id Empty.elim) m1 := by
    refine ⟨et.symm, ?_⟩
    refine assignments_same n.moduleBody.assignmentList l1 hn ?_
    rw [hl1]
    show (n.moduleBody.assignmentList.map (Assignment.map id Empty.elim)).map _ = _
    rw [List.map_map]
    exact List.map_congr_left fun x _ => assignment_forget x
  have hnames : l1.map Assignment.name = (n.map id Empty.elim : Module).moduleBody.assignmentList.map Assignment.name := by
    have hp : ∀ x : MAssignment, (x.map (fun _ => ()) (fun _ => ())).name = x.name := by intro x; cases x <;> rfl
    have := congrArg (List.map Assignment.name) hl1
    simpa [List.map_map, Function.comp_def, hp, ModuleDefinition.map, ModuleBody.map] using this
  have hone : OneEach m'.moduleBody.assignmentList := fun x hx y hy e => List.inj_on_of_nodup_map ht.different hx hy e
  have hE : Enlarged m1 m' := by
    refine ⟨rfl, ?_, hone, fun x hx hxt => ?_⟩
    · rw [hl]; exact List.sublist_append_left _ _
    · have := ht.times x hx hxt
      rw [← hnames] at this
      obtain ⟨y, hy, e⟩ := List.mem_map.1 this
      rw [hone x hx y (by rw [hl]; exact List.mem_append_left _ hy) e.symm]
      exact hy
  rcases C88_renamed u k p id id ⟨Function.injective_id, rfl, rfl⟩ _ m1 hr with ⟨hx, _⟩ | ⟨r, r', hx, hx', hrr⟩
  · rw [hf] at hx; cases hx
  · rw [hf] at hx
    cases hx
    cases hrr with
    | ok q q' l l' hll =>
      have : l = l' := List.forall₂_eq_eq_eq ▸ hll.imp fun _ _ => decl_same
      subst this
      exact C86_added u k k' p m1 m' ⟨q', l⟩ f' hE hx' hf'

/-! ### With `DEFAULT` -/

def oneDefault : Str := c! "M DEFINITIONS ::= BEGIN A ::= SEQUENCE { x INTEGER DEFAULT 5 } END"
def otherDefinition : Str := c! "N DEFINITIONS ::= BEGIN B ::= SET { y A } END"
def oneDefaultAdded : Str := c! "M DEFINITIONS ::= BEGIN A ::= SEQUENCE { x INTEGER DEFAULT 5 } B ::= SET { y A } END"

/-- The tags of the fields of structs in a file. -/
def fieldTagsOf (f : GoFile) : List (Option Str) := f.decls.flatMap fun
  | .type l => l.flatMap fun s => (match s.type with
    | .struct fs => fs.map fun (.mk _ _ t) => t
    | _ => [])
  | _ => []

/-- The names of the assignments, and the file made. -/
def madeOf (s : Str) : Option (List Str × List (Option Str)) := (module? (parseString asciiUnicode s)).bind fun m =>
  match generateFile asciiCasing 6 int64Params m with
  | some (.ok f) => some (m.moduleBody.assignmentList.map Assignment.name, fieldTagsOf f)
  | _ => none

theorem madeOf_some {s : Str} {r} (h : madeOf s = some r) : ∃ m f, parseString asciiUnicode s = .ok m ∧ generateFile asciiCasing 6 int64Params m = some (.ok f) ∧
    m.moduleBody.assignmentList.map Assignment.name = r.1 ∧ fieldTagsOf f = r.2 := by
  unfold madeOf at h
  cases hp : parseString asciiUnicode s with
  | ok m =>
    rw [hp] at h
    simp only [module?, Option.bind_some] at h
    split at h
    · rename_i f hf
      cases h
      exact ⟨m, f, rfl, hf, rfl, rfl⟩
    · cases h
  | _ => rw [hp] at h; cases h

/-- The tokens of a text before `BEGIN` in the case. -/
def caseHead (s : Str) : List Token := [upper s, kw Tok.DEFINITIONS, kw Tok.ASSIGNMENT]

/-- A `DEFAULT` is lost in the Go file if a type is put after the one it is in. -/
theorem C93_witness : ∃ m m' f f', TextAdded asciiUnicode oneDefault oneDefaultAdded m m' ∧ generateFile asciiCasing 6 int64Params m = some (.ok f) ∧
    generateFile asciiCasing 6 int64Params m' = some (.ok f') ∧ fieldTagsOf f = [some (c! "`asn1:\"default:5,optional\"`")] ∧
    fieldTagsOf f' = [some (c! "`asn1:\"optional\"`"), none] := by
  obtain ⟨m, f, h1, h2, h3, h4⟩ := madeOf_some (s := oneDefault) (r := ([c! "A"], [some (c! "`asn1:\"default:5,optional\"`")])) (by decide +kernel)
  obtain ⟨m', f', h1', h2', h3', h4'⟩ := madeOf_some (s := oneDefaultAdded) (r := ([c! "A", c! "B"], [some (c! "`asn1:\"optional\"`"), none])) (by decide +kernel)
  have ho : (module? (parseString asciiUnicode otherDefinition)).isSome = true := by decide +kernel
  refine ⟨m, m', f, f', ⟨h1, h1', ⟨caseHead (c! "M"), [upper (c! "A"), kw Tok.ASSIGNMENT, kw Tok.SEQUENCE, kw Tok.OPEN_CURLY, lower (c! "x"), kw Tok.INTEGER,
    kw Tok.DEFAULT, num (c! "5") 5, kw Tok.CLOSE_CURLY], [upper (c! "B"), kw Tok.ASSIGNMENT, kw Tok.SET, kw Tok.OPEN_CURLY, lower (c! "y"), upper (c! "A"),
    kw Tok.CLOSE_CURLY], otherDefinition, caseHead (c! "N"), by decide, (tokenize_iff _ _ _).1 (by decide +kernel), (tokenize_iff _ _ _).1 (by decide +kernel),
    (tokenize_iff _ _ _).1 (by decide +kernel), by decide, by decide, by decide, by decide, ?_⟩, by rw [h3']; decide, ?_⟩, h2, h2', h4, h4'⟩
  · cases hp : parseString asciiUnicode otherDefinition with
    | ok mo => exact ⟨mo, rfl⟩
    | _ => rw [hp] at ho; cases ho
  · intro a ha ht
    have : a.name ∈ [c! "A", c! "B"] := by
      have hx := List.mem_map_of_mem (f := Assignment.name) ha
      rw [h3'] at hx
      exact hx
    revert ht
    rcases List.mem_cons.1 this with e | e
    · rw [e]; exact fun h => absurd h (by simp [TimeName])
    · rw [List.mem_singleton.1 e]; exact fun h => absurd h (by simp [TimeName])

theorem C93_false : ¬ C93_statement := by
  intro h
  obtain ⟨m, m', f, f', ht, hf, hf', e, e'⟩ := C93_witness
  obtain ⟨_, h2⟩ := h asciiCasing 6 6 int64Params _ _ m m' f f' ht hf hf'
  have hm : some (c! "`asn1:\"default:5,optional\"`") ∈ fieldTagsOf f := by rw [e]; exact List.mem_singleton.2 rfl
  have hm' : some (c! "`asn1:\"default:5,optional\"`") ∈ fieldTagsOf f' := by
    obtain ⟨d, hd, hx⟩ := List.mem_flatMap.1 hm
    exact List.mem_flatMap.2 ⟨d, h2 d hd, hx⟩
  rw [e'] at hm'
  revert hm'
  decide

/-! ### A case without `DEFAULT` -/

def plainText : Str := c! "M DEFINITIONS ::= BEGIN A ::= SEQUENCE { x INTEGER OPTIONAL } END"
def plainAdded : Str := c! "M DEFINITIONS ::= BEGIN A ::= SEQUENCE { x INTEGER OPTIONAL } B ::= SET { y A } END"

def plainTokens : List Token := [upper (c! "A"), kw Tok.ASSIGNMENT, kw Tok.SEQUENCE, kw Tok.OPEN_CURLY, lower (c! "x"), kw Tok.INTEGER, kw Tok.OPTIONAL, kw Tok.CLOSE_CURLY]
def addedTokens : List Token := [upper (c! "B"), kw Tok.ASSIGNMENT, kw Tok.SET, kw Tok.OPEN_CURLY, lower (c! "y"), upper (c! "A"), kw Tok.CLOSE_CURLY]

/-- The module of the case, in which no component has a default. -/
def plainModuleOf (D : Type) : ModuleDefinition DefinedValue D :=
  ⟨⟨c! "M", []⟩, TAGS_EXPLICIT, false, ⟨[.type (c! "A") (.sequence [.named (.mk (c! "x") (.integer [])) true none] [])], []⟩⟩

theorem plain_tokens : Tokens asciiUnicode false plainText (caseHead (c! "M") ++ kw Tok.BEGIN :: (plainTokens ++ [kw Tok.END])) :=
  (tokenize_iff _ _ _).1 (by decide +kernel)

theorem plain_parsed : parseString asciiUnicode plainText = .ok (plainModuleOf _) :=
  C24_notation _ _ _ _ plain_tokens (.mk (c! "M") _ _ _ _ _ _ _ _ .none .none .none (.some _ _ _ _ _ .none .none
    (.one _ _ (.type (c! "A") _ _ (.sequence _ _ _ _ (.components _ _ (.one _ _ (.optional _ _ (.mk (c! "x") _ _ (.integer _))))))))))

example : NoDefaults (plainModuleOf _) := ⟨plainModuleOf Empty, rfl⟩

/-- The hypotheses of `C93_added_partial` hold. -/
example : ∃ m' f f', TextAdded asciiUnicode plainText plainAdded (plainModuleOf _) m' ∧ NoDefaults (plainModuleOf _) ∧
    generateFile asciiCasing 6 int64Params (plainModuleOf _) = some (.ok f) ∧ generateFile asciiCasing 6 int64Params m' = some (.ok f') ∧
    fieldTagsOf f = [some (c! "`asn1:\"optional\"`")] ∧ fieldTagsOf f' = [some (c! "`asn1:\"optional\"`"), none] := by
  obtain ⟨m, f, h1, h2, h3, h4⟩ := madeOf_some (s := plainText) (r := ([c! "A"], [some (c! "`asn1:\"optional\"`")])) (by decide +kernel)
  obtain ⟨m', f', h1', h2', h3', h4'⟩ := madeOf_some (s := plainAdded) (r := ([c! "A", c! "B"], [some (c! "`asn1:\"optional\"`"), none])) (by decide +kernel)
  have ho : (module? (parseString asciiUnicode otherDefinition)).isSome = true := by decide +kernel
  obtain rfl : m = plainModuleOf _ := ParseResult.ok.inj (h1.symm.trans plain_parsed)
  refine ⟨m', f, f', ⟨h1, h1', ⟨caseHead (c! "M"), plainTokens, addedTokens, otherDefinition, caseHead (c! "N"), by decide, plain_tokens,
    (tokenize_iff _ _ _).1 (by decide +kernel), (tokenize_iff _ _ _).1 (by decide +kernel), by decide, by decide, by decide, by decide, ?_⟩, by rw [h3']; decide, ?_⟩,
    ⟨plainModuleOf Empty, rfl⟩, h2, h2', h4, h4'⟩
  · cases hp : parseString asciiUnicode otherDefinition with
    | ok mo => exact ⟨mo, rfl⟩
    | _ => rw [hp] at ho; cases ho
  · intro a ha ht
    have : a.name ∈ [c! "A", c! "B"] := by
      have hx := List.mem_map_of_mem (f := Assignment.name) ha
      rw [h3'] at hx
      exact hx
    revert ht
    rcases List.mem_cons.1 this with e | e
    · rw [e]; exact fun h => absurd h (by simp [TimeName])
    · rw [List.mem_singleton.1 e]; exact fun h => absurd h (by simp [TimeName])

end Asn1go.Props
