import Verif.Props.Part

/-! The Go values of a type depend on the declarations used only: C99. -/

namespace Asn1go.Props

open Spec CG Enco Deco LR Spec.Notation Asn1go.Notation

/-! ### C99: order of assignments, added assignments, and values -/

mutual

/-- No interface in the value holds a value. -/
def NoIface : GoVal → Prop
  | .iface _ => False
  | .slice _ _ l => NoIfaces l
  | .struct fs => NoIfaceFields fs
  | _ => True

/-- In none of the values. -/
def NoIfaces : List GoVal → Prop
  | [] => True
  | v :: l => NoIface v ∧ NoIfaces l

/-- In none of the fields. -/
def NoIfaceFields : List GoFieldVal → Prop
  | [] => True
  | .mk _ _ v :: l => NoIface v ∧ NoIfaceFields l

end

theorem noIface_named {n : Str} {v : GoVal} (h : NoIface (v.named n)) : NoIface v := by
  cases v <;> first | exact h | trivial

section

variable {f f' : GoFile}

mutual

theorem typed_more (hf : More f f') {e : GoExpr} {v : GoVal} : Typed f e v → Typed f' e v
  | .bool _ _ => .bool _ (hf.pre _ (by decide))
  | .int64 _ _ h => .int64 _ (hf.pre _ (by decide)) h
  | .float64 _ => .float64 (hf.pre _ (by decide))
  | .string _ _ => .string _ (hf.pre _ (by decide))
  | .bytes _ _ => .bytes _ (hf.pre _ (by decide))
  | .big _ => .big _
  | .bits _ _ h => .bits _ _ h
  | .enumerated _ h => .enumerated _ h
  | .oid _ h => .oid _ h
  | .time _ => .time _
  | .raw _ _ _ _ _ h h' => .raw _ _ _ _ _ h h'
  | .nil => .nil
  | .iface _ _ h h1 h2 => .iface _ _ (typed_more hf h) h1 h2
  | .slice _ _ _ h1 h2 h => .slice _ _ _ h1 h2 (typedElems_more hf h)
  | .struct _ _ h => .struct _ _ (typedFields_more hf h)
  | .alias _ _ _ hd h => .alias _ _ _ (hf.decl _ hd) (typed_more hf h)
  | .defined _ _ _ hd h => .defined _ _ _ (hf.decl _ hd) (typed_more hf h)

theorem typedElems_more (hf : More f f') {e : GoExpr} {l : List GoVal} : TypedElems f e l → TypedElems f' e l
  | .nil _ => .nil _
  | .cons _ _ _ h h' => .cons _ _ _ (typed_more hf h) (typedElems_more hf h')

theorem typedFields_more (hf : More f f') {fs : List GoField} {l : List GoFieldVal} : TypedFields f fs l → TypedFields f' fs l
  | .nil => .nil
  | .cons _ _ _ _ _ _ h h' => .cons _ _ _ _ _ _ (typed_more hf h) (typedFields_more hf h')

end

mutual

theorem typed_less (hf : Part f f') {e : GoExpr} {v : GoVal} : Typed f' e v → Known f (exprIdents e) → NoIface v → Typed f e v
  | .bool _ _, _, _ => .bool _ (hf.own _ (by decide))
  | .int64 _ _ h, _, _ => .int64 _ (hf.own _ (by decide)) h
  | .float64 _, _, _ => .float64 (hf.own _ (by decide))
  | .string _ _, _, _ => .string _ (hf.own _ (by decide))
  | .bytes _ _, _, _ => .bytes _ (hf.own _ (by decide))
  | .big _, _, _ => .big _
  | .bits _ _ h, _, _ => .bits _ _ h
  | .enumerated _ h, _, _ => .enumerated _ h
  | .oid _ h, _, _ => .oid _ h
  | .time _, _, _ => .time _
  | .raw _ _ _ _ _ h h', _, _ => .raw _ _ _ _ _ h h'
  | .nil, _, _ => .nil
  | .iface _ _ _ _ _, _, hi => hi.elim
  | .slice _ _ _ h1 h2 h, hk, hi => .slice _ _ _ h1 h2 (typedElems_less hf h hk hi)
  | .struct _ _ h, hk, hi => .struct _ _ (typedFields_less hf h hk hi)
  | .alias _ _ _ hd h, hk, hi => by
    have h1 := hf.back hk hd
    exact .alias _ _ _ h1 (typed_less hf h (hf.closed _ h1) hi)
  | .defined _ _ _ hd h, hk, hi => by
    have h1 := hf.back hk hd
    exact .defined _ _ _ h1 (typed_less hf h (hf.closed _ h1) (noIface_named hi))

theorem typedElems_less (hf : Part f f') {e : GoExpr} {l : List GoVal} : TypedElems f' e l → Known f (exprIdents e) → NoIfaces l → TypedElems f e l
  | .nil _, _, _ => .nil _
  | .cons _ _ _ h h', hk, hi => .cons _ _ _ (typed_less hf h hk hi.1) (typedElems_less hf h' hk hi.2)

theorem typedFields_less (hf : Part f f') {fs : List GoField} {l : List GoFieldVal} : TypedFields f' fs l → Known f (fieldIdents fs) → NoIfaceFields l → TypedFields f fs l
  | .nil, _, _ => .nil
  | .cons _ _ _ _ _ _ h h', hk, hi => .cons _ _ _ _ _ _ (typed_less hf h (known_cons hk).1 hi.1) (typedFields_less hf h' (known_cons hk).2 hi.2)

end

end

/-- C99: with the assignments in another order, the types have the same values. -/
theorem C99_order (u : Casing) (fuel : Nat) (p : GenParams) (m m' : Module) (hm : Reordered m m') (hd : OneEach m.moduleBody.assignmentList) (f f' : GoFile)
    (h : generateFile u fuel p m = some (.ok f)) (h' : generateFile u fuel p m' = some (.ok f')) (hn : WellNamed u m.moduleBody.assignmentList)
    (e : GoExpr) (v : GoVal) : Typed f e v ↔ Typed f' e v := by
  obtain ⟨h1, h2⟩ := order_more hm hd h h' hn
  exact ⟨typed_more h1, typed_more h2⟩

theorem values_part {u : Casing} {k : Nat} {p : GenParams} {m : Module} {f f' : GoFile} (hf : Part f f') (h : generateFile u k p m = some (.ok f)) {a : Str}
    (ha : a ∈ typeNames m.moduleBody.assignmentList) (v : GoVal) :
    (Typed f (.ident (goifyName u a)) v → Typed f' (.ident (goifyName u a)) v) ∧
      (NoIface v → Typed f' (.ident (goifyName u a)) v → Typed f (.ident (goifyName u a)) v) :=
  ⟨typed_more hf.toMore, fun hi ht => typed_less hf ht (name_known h ha) hi⟩

/-- C99: with more assignments, the types that were there keep their values; and get none, apart from those in interfaces. -/
theorem C99_added (u : Casing) (k k' : Nat) (p : GenParams) (m m' : Module) (hm : Enlarged m m') (f f' : GoFile) (h : generateFile u k p m = some (.ok f))
    (h' : generateFile u k' p m' = some (.ok f')) (hn : NamesOk u m'.moduleBody.assignmentList) (hv : NoValName m'.moduleBody.assignmentList)
    (a : Str) (ha : a ∈ typeNames m.moduleBody.assignmentList) (v : GoVal) :
    (Typed f (.ident (goifyName u a)) v → Typed f' (.ident (goifyName u a)) v) ∧
      (NoIface v → Typed f' (.ident (goifyName u a)) v → Typed f (.ident (goifyName u a)) v) :=
  values_part (files_part (C86_added u k k' p m m' f f' hm h h').2 h h' hn hv) h ha v

/-- C99: and so it is if assignments are put after those of a text that has no DEFAULT. -/
theorem C99_text (u : Casing) (k k' : Nat) (p : GenParams) (text text' : Str) (m m' : Module) (ht : TextAdded u.toUnicode text text' m m') (hd : NoDefaults m)
    (f f' : GoFile) (h : generateFile u k p m = some (.ok f)) (h' : generateFile u k' p m' = some (.ok f')) (hn : NamesOk u m'.moduleBody.assignmentList)
    (hv : NoValName m'.moduleBody.assignmentList) (a : Str) (ha : a ∈ typeNames m.moduleBody.assignmentList) (v : GoVal) :
    (Typed f (.ident (goifyName u a)) v → Typed f' (.ident (goifyName u a)) v) ∧
      (NoIface v → Typed f' (.ident (goifyName u a)) v → Typed f (.ident (goifyName u a)) v) :=
  values_part (files_part (C93_added_partial u k k' p text text' m m' f f' ht hd h h').2 h h' hn hv) h ha v

/-! ### Cases -/

/-- The value of the packet is one with the assignments in the other order. -/
theorem C99_packet : Typed swappedFile (.ident (c! "A")) packetValue :=
  (C99_order asciiCasing 20 int64Params (moduleOf TAGS_IMPLICIT packet) (moduleOf TAGS_IMPLICIT packet.reverse) ⟨rfl, rfl, (List.reverse_perm packet).symm⟩
    packet_oneEach packetFile swappedFile packet_file swapped_file packet_names.named _ _).1 packet_typed

def wideText : Str := c! "M DEFINITIONS ::= BEGIN A ::= CHOICE { x INTEGER, y BOOLEAN } END"
def wideAdded : Str := c! "M DEFINITIONS ::= BEGIN A ::= CHOICE { x INTEGER, y BOOLEAN } B ::= SET OF A END"
def wideOther : Str := c! "N DEFINITIONS ::= BEGIN B ::= SET OF A END"

def wideTokens : List Token := [upper (c! "A"), kw Tok.ASSIGNMENT, kw Tok.CHOICE, kw Tok.OPEN_CURLY, lower (c! "x"), kw Tok.INTEGER, kw Tok.COMMA, lower (c! "y"), kw Tok.BOOLEAN,
  kw Tok.CLOSE_CURLY]
def moreTokens : List Token := [upper (c! "B"), kw Tok.ASSIGNMENT, kw Tok.SET, kw Tok.OF, upper (c! "A")]

/-- The assignments of the text, and those of the text that has more. -/
def wideList (D : Type) : List (Assignment DefinedValue D) := [.type (c! "A") (.choice [.mk (c! "x") (.integer []), .mk (c! "y") .boolean] [])]
def moreList (D : Type) : List (Assignment DefinedValue D) := wideList D ++ [.type (c! "B") (.setOf (.ref (c! "A")))]

def wideModule (D : Type) : ModuleDefinition DefinedValue D := ⟨⟨c! "M", []⟩, TAGS_EXPLICIT, false, ⟨wideList D, []⟩⟩
def moreModule : Module := ⟨⟨c! "M", []⟩, TAGS_EXPLICIT, false, ⟨moreList _, []⟩⟩

theorem wide_text : AssignmentsText (R := DefinedValue) (D := Value DefinedValue) .written true wideTokens (wideList _) :=
  .one _ _ (.type (c! "A") _ _ (.choice false [lower (c! "x"), kw Tok.INTEGER, kw Tok.COMMA, lower (c! "y"), kw Tok.BOOLEAN] _
    (.snoc [lower (c! "x"), kw Tok.INTEGER] _ [_] _ (.one _ _ (.mk (c! "x") _ _ (.integer _))) (.mk (c! "y") _ _ (.boolean _)))))

theorem wide_tokens : Tokens asciiUnicode false wideText (caseHead (c! "M") ++ kw Tok.BEGIN :: (wideTokens ++ [kw Tok.END])) :=
  (tokenize_iff _ _ _).1 (by decide +kernel)

theorem more_tokens : Tokens asciiUnicode false wideAdded (caseHead (c! "M") ++ kw Tok.BEGIN :: ((wideTokens ++ moreTokens) ++ [kw Tok.END])) :=
  (tokenize_iff _ _ _).1 (by decide +kernel)

theorem wide_parsed : parseString asciiUnicode wideText = .ok (wideModule _) :=
  C24_notation _ _ _ _ wide_tokens (.mk (c! "M") _ _ _ _ _ _ _ _ .none .none .none (.some _ _ _ _ _ .none .none wide_text))

theorem more_parsed : parseString asciiUnicode wideAdded = .ok moreModule :=
  C24_notation _ _ _ _ more_tokens (.mk (c! "M") _ _ _ _ _ _ _ _ .none .none .none (.some _ _ _ _ _ .none .none
    (.snoc _ _ _ _ wide_text (.type (c! "B") _ _ (.setOf _ _ (.type _ _ (.ref _ (c! "A"))))))))

theorem wide_added : TextAdded asciiUnicode wideText wideAdded (wideModule _) moreModule := by
  have ho : (module? (parseString asciiUnicode wideOther)).isSome = true := by decide +kernel
  refine ⟨wide_parsed, more_parsed, ⟨caseHead (c! "M"), wideTokens, moreTokens, wideOther, caseHead (c! "N"), by decide, wide_tokens, more_tokens,
    (tokenize_iff _ _ _).1 (by decide +kernel), by decide, by decide, by decide, by decide, ?_⟩, by decide, ?_⟩
  · cases hp : parseString asciiUnicode wideOther with
    | ok mo => exact ⟨mo, rfl⟩
    | _ => rw [hp] at ho; cases ho
  · intro a ha ht
    simp only [moreModule, moreList, wideList, List.cons_append, List.nil_append, List.mem_cons, List.not_mem_nil, or_false] at ha
    rcases ha with rfl | rfl <;> simp [TimeName, Assignment.name] at ht

def wideFile : GoFile := ⟨c! "M", [.type [⟨c! "A", true, .iface⟩]]⟩
def moreFile : GoFile := ⟨c! "M", [.type [⟨c! "A", true, .iface⟩], .type [⟨c! "BSET", false, .array (.ident (c! "A"))⟩, ⟨c! "B", true, .ident (c! "BSET")⟩]]⟩

theorem wide_file : generateFile asciiCasing 20 int64Params (wideModule _) = some (.ok wideFile) := rfl
theorem more_file : generateFile asciiCasing 20 int64Params moreModule = some (.ok moreFile) := rfl

theorem more_typeNames {r : Str} (h : r ∈ typeNames moreModule.moduleBody.assignmentList) : r = c! "A" ∨ r = c! "B" := by
  have : r ∈ [c! "A", c! "B"] := h
  simpa using this

theorem more_types {r : Str} {t : MTy} (h : .type r t ∈ moreModule.moduleBody.assignmentList) :
    (r = c! "A" ∧ t = .choice [.mk (c! "x") (.integer []), .mk (c! "y") .boolean] []) ∨ (r = c! "B" ∧ t = .setOf (.ref (c! "A"))) := by
  simpa [moreModule, moreList, wideList] using h

theorem more_names : NamesOk asciiCasing moreModule.moduleBody.assignmentList where
  named :=
    { types := by decide
      values := by decide
      typeName := by
        intro r hr
        rcases more_typeNames hr with rfl | rfl <;>
          exact upperName_of ⟨_, _, rfl, by decide⟩ (by decide) (by decide) (by decide) (by decide) (by decide)
      valueName := by simp [valueNames, moreModule, moreList, wideList]
      numbers := by
        intro r t nums hm hc
        rcases more_types hm with ⟨rfl, rfl⟩ | ⟨rfl, rfl⟩ <;> cases hc
      number := by
        intro r t nums hm hc
        rcases more_types hm with ⟨rfl, rfl⟩ | ⟨rfl, rfl⟩ <;> cases hc }
  noSetClash := by
    intro r t hm _
    rcases more_types hm with ⟨rfl, rfl⟩ | ⟨rfl, rfl⟩ <;> decide
  noTime := by
    intro a ha
    rcases more_typeNames ha with rfl | rfl <;> simp [TimeName]
  members := by
    intro n t hm a b hi
    rcases more_types hm with ⟨rfl, rfl⟩ | ⟨rfl, rfl⟩ <;> rcases hi with hi | hi <;> cases hi <;> rename_i hi <;> cases hi

theorem more_valName : NoValName moreModule.moduleBody.assignmentList := by
  intro r hr
  rcases more_typeNames hr with rfl | rfl <;> decide

theorem wide_noDefaults : NoDefaults (wideModule _) := ⟨wideModule Empty, rfl⟩

/-- A text to which a SET OF is added: what is read into `A` is the same. -/
theorem C98_wide (b : Bytes) (v : GoVal) (rest : Bytes) : Unmarshals wideFile asciiCasing (.ident (c! "A")) b v rest ↔ Unmarshals moreFile asciiCasing (.ident (c! "A")) b v rest :=
  C98_text asciiCasing 20 20 int64Params _ _ _ _ wide_added wide_noDefaults _ _ wide_file more_file more_names more_valName (c! "A") (by decide) b v rest

/-- In the interface `A` an INTEGER is found with both files. -/
theorem C98_wide_reads : Unmarshals moreFile asciiCasing (.ident (c! "A")) [2, 1, 5] (.iface (.int 5)) [] :=
  (C98_wide _ _ _).1 (.iface (.ident (c! "A")) {} [2, 1, 5] [] ⟨0, 2, false, 1⟩ [5] _ (.alias _ _ _ _ ⟨_, List.mem_singleton.2 rfl, List.mem_singleton.2 rfl⟩ .iface)
    (by decide) (by decide) (.value .int _ rfl rfl rfl (.int _ _ _ (by decide))))

/-- The same values; and an interface of the larger file holds values of the added types, so the condition on interfaces is needed. -/
theorem C99_wide : Typed moreFile (.ident (c! "A")) .nilIface ∧ Typed moreFile (.ident (c! "A")) (.iface (.slice (c! "BSET") false [.nilIface])) ∧
    ¬ Typed wideFile (.ident (c! "A")) (.iface (.slice (c! "BSET") false [.nilIface])) := by
  have hA : Declares moreFile ⟨c! "A", true, .iface⟩ := ⟨_, List.mem_cons_self .., List.mem_singleton.2 rfl⟩
  have hB : Declares moreFile ⟨c! "BSET", false, .array (.ident (c! "A"))⟩ := ⟨_, List.mem_cons_of_mem _ (List.mem_singleton.2 rfl), List.mem_cons_self ..⟩
  refine ⟨(C99_text asciiCasing 20 20 int64Params _ _ _ _ wide_added wide_noDefaults _ _ wide_file more_file more_names more_valName (c! "A") (by decide) _).1
    (.alias _ _ _ ⟨_, List.mem_singleton.2 rfl, List.mem_singleton.2 rfl⟩ .nil), .alias _ _ _ hA (.iface (.ident (c! "BSET")) _ ?_ (by simp) (by simp)), ?_⟩
  · exact .defined _ _ (.slice [] false [.nilIface]) hB (.slice _ _ _ (by simp) (by simp) (.cons _ _ _ (.alias _ _ _ hA .nil) (.nil _)))
  · have key : ∀ e v, Typed wideFile e v → ∀ n z l, v = .slice n z l → n = [] := by
      intro e v h
      induction h using Typed.rec (motive_2 := fun _ _ _ => True) (motive_3 := fun _ _ _ => True) with
      | slice => intro n z l h; cases h; rfl
      | «alias» _ _ _ _ _ ih => exact ih
      | defined n e v hd _ ih =>
        obtain ⟨l, h1, h2⟩ := hd
        cases List.mem_singleton.1 h1
        cases List.mem_singleton.1 h2
      | _ => intros; first | trivial | contradiction
    have inner : ∀ e v, Typed wideFile e v → ∀ w, v = .iface w → ∃ e', Typed wideFile e' w := by
      intro e v h
      induction h using Typed.rec (motive_2 := fun _ _ _ => True) (motive_3 := fun _ _ _ => True) with
      | iface e v h => intro w hw; cases hw; exact ⟨_, h⟩
      | «alias» _ _ _ _ _ ih => exact ih
      | defined n e v hd _ ih =>
        obtain ⟨l, h1, h2⟩ := hd
        cases List.mem_singleton.1 h1
        cases List.mem_singleton.1 h2
      | _ => intros; first | trivial | contradiction
    intro h
    obtain ⟨e, h1⟩ := inner _ _ h _ rfl
    exact absurd (key _ _ h1 _ _ _ rfl) (by decide)

end Asn1go.Props
