import Verif.Proofs.Codegen.Order
import Verif.Props.Codegen

/-! The order of assignments, and assignments that are added (/repo/codegen.go:98-161): C85, C86. -/

namespace Asn1go.Props

open Spec CG

/-! ### C85: the order of assignments does not matter -/

/-- Different assignments have different names. -/
def OneEach (l : List MAssignment) : Prop := ∀ a ∈ l, ∀ b ∈ l, a.name = b.name → a = b

/-- The modules differ in the order of their assignments, and in what `Generate` does not read. -/
structure Reordered (m m' : Module) : Prop where
  tags : m.tagDefault = m'.tagDefault
  name : m.moduleIdentifier.reference = m'.moduleIdentifier.reference
  list : m.moduleBody.assignmentList.Perm m'.moduleBody.assignmentList

/-- Files with the same declarations in some order, or the same errors in some order. -/
inductive SameButOrder : Except GenError GoFile → Except GenError GoFile → Prop
  | ok (f f' : GoFile) : f.package = f'.package → f.decls.Perm f'.decls → SameButOrder (.ok f) (.ok f')
  | automatic : SameButOrder (.error .automatic) (.error .automatic)
  | errors (a b : List GenErr) : a.Perm b → SameButOrder (.error (.translation a)) (.error (.translation b))

/-- C85: for modules that differ in the order of assignments only, `Generate` makes the same declarations, or reports the same errors, or does not
return. -/
theorem C85_order (u : Casing) (fuel : Nat) (p : GenParams) (m m' : Module) (hm : Reordered m m') (hd : OneEach m.moduleBody.assignmentList) :
    (generateFile u fuel p m = none ∧ generateFile u fuel p m' = none) ∨
      ∃ r r', generateFile u fuel p m = some r ∧ generateFile u fuel p m' = some r' ∧ SameButOrder r r' := by
  have hsame : ∀ n, unwrapToLeafType m.moduleBody.assignmentList fuel n = unwrapToLeafType m'.moduleBody.assignmentList fuel n :=
    fun n => leaf_get (fun n => get_perm hm.list hd n) fuel n
  unfold generateFile
  rw [← hm.tags, ← hm.name]
  by_cases ha : m.tagDefault = TAGS_AUTOMATIC
  · rw [if_pos ha, if_pos ha]
    exact .inr ⟨_, _, rfl, rfl, .automatic⟩
  · rw [if_neg ha, if_neg ha]
    simp only
    have key := decls_same (c := ⟨u, fuel, m.tagDefault, [], p.integerRepr⟩) (l := m.moduleBody.assignmentList)
      (l' := m'.moduleBody.assignmentList) hsame
    simp only [onto] at key
    rw [← key]
    cases h : generateDeclarations ⟨u, fuel, m.tagDefault, m.moduleBody.assignmentList, p.integerRepr⟩ m.moduleBody.assignmentList with
    | none =>
      cases h' : generateDeclarations ⟨u, fuel, m.tagDefault, m.moduleBody.assignmentList, p.integerRepr⟩ m'.moduleBody.assignmentList with
      | none => exact .inl ⟨rfl, rfl⟩
      | some q =>
        obtain ⟨_, _, h2, _, _⟩ := decls_perm hm.list.symm (ds := q.1) (log := q.2) h'
        rw [h] at h2
        cases h2
    | some q =>
      obtain ⟨ds, log⟩ := q
      obtain ⟨ds', log', h', hds, hlog⟩ := decls_perm hm.list h
      rw [h']
      have he := errorsOf_perm hlog
      refine .inr ?_
      simp only
      by_cases h0 : errorsOf log = []
      · have h0' : errorsOf log' = [] := by
          rw [h0] at he
          exact he.symm.eq_nil
        rw [if_neg (not_not.2 h0), if_neg (not_not.2 h0')]
        exact ⟨_, _, rfl, rfl, .ok _ _ rfl (((required_perm fun x => hlog.mem_iff).map _).append hds)⟩
      · have h0' : errorsOf log' ≠ [] := by
          intro h1
          rw [h1] at he
          exact h0 he.eq_nil
        rw [if_pos h0, if_pos h0']
        exact ⟨_, _, rfl, rfl, .errors _ _ he⟩

/-- The hypotheses are met: the module of Verif/Props/Codegen.lean, backwards. -/
def demoBackwards : Module := { demo with moduleBody := { demo.moduleBody with assignmentList := demo.moduleBody.assignmentList.reverse } }

theorem demo_oneEach : OneEach demo.moduleBody.assignmentList := by
  intro a ha b hb
  simp only [demo, moduleOf, List.mem_cons, List.not_mem_nil, or_false] at ha hb
  rcases ha with rfl | rfl | rfl | rfl | rfl <;> rcases hb with rfl | rfl | rfl | rfl | rfl <;> first | exact fun _ => rfl | (intro h; exact absurd h (by decide))

example : ∃ f, generateFile asciiCasing 6 int64Params demoBackwards = some (.ok f) ∧ f.decls.Perm demoFile.decls := by
  rcases C85_order asciiCasing 6 int64Params demo demoBackwards ⟨rfl, rfl, (List.reverse_perm _).symm⟩ demo_oneEach with ⟨h, _⟩ | ⟨r, r', h, h', hs⟩
  · rw [demo_file] at h
    cases h
  · rw [demo_file] at h
    cases h
    cases hs with
    | ok f f' _ hp => exact ⟨f', h', hp.symm⟩

/-- `A ::= BIT STRING`, `A ::= INTEGER`, `B ::= SEQUENCE OF A` -/
def twiceModule : Module := moduleOf 0 [.type (c! "A") (.bitString []), .type (c! "A") (.integer []), .type (c! "B") (.sequenceOf (.ref (c! "A")))]
/-- The same with the first two the other way round. -/
def twiceBackwards : Module := moduleOf 0 [.type (c! "A") (.integer []), .type (c! "A") (.bitString []), .type (c! "B") (.sequenceOf (.ref (c! "A")))]

def twiceFile : GoFile := ⟨c! "My_Mod", [.imp (c! "encoding/asn1"), .type [⟨c! "A", true, .ident (c! "asn1.BitString")⟩],
  .type [⟨c! "A", true, .ident (c! "int64")⟩], .type [⟨c! "B", true, .array (.ident (c! "asn1.BitString"))⟩]]⟩
def twiceFileBackwards : GoFile := ⟨c! "My_Mod", [.imp (c! "encoding/asn1"), .type [⟨c! "A", true, .ident (c! "int64")⟩],
  .type [⟨c! "A", true, .ident (c! "asn1.BitString")⟩], .type [⟨c! "B", true, .array (.ident (c! "A"))⟩]]⟩

/-- With a name defined twice the order matters. -/
theorem C85_needed : Reordered twiceModule twiceBackwards ∧ generateFile asciiCasing 6 int64Params twiceModule = some (.ok twiceFile) ∧
    generateFile asciiCasing 6 int64Params twiceBackwards = some (.ok twiceFileBackwards) ∧ ¬ SameButOrder (.ok twiceFile) (.ok twiceFileBackwards) := by
  refine ⟨⟨rfl, rfl, .swap _ _ _⟩, rfl, rfl, fun h => ?_⟩
  cases h with
  | ok _ _ _ h =>
    have := h.mem_iff (a := .type [⟨c! "B", true, .array (.ident (c! "asn1.BitString"))⟩])
    revert this
    simp [twiceFile, twiceFileBackwards]

/-! ### C86: assignments that are added -/

/-- The declarations other than imports. -/
def ownDecls (f : GoFile) : List GoDecl := f.decls.filter fun d => match d with
  | .imp _ => false
  | _ => true

/-- The second module has the assignments of the first, and more between them; the new ones redefine nothing and no time type. -/
structure Enlarged (m m' : Module) : Prop where
  tags : m.tagDefault = m'.tagDefault
  list : m.moduleBody.assignmentList.Sublist m'.moduleBody.assignmentList
  oneEach : OneEach m'.moduleBody.assignmentList
  times : ∀ a ∈ m'.moduleBody.assignmentList, TimeName a.name → a ∈ m.moduleBody.assignmentList

theorem Enlarged.extends {m m' : Module} (h : Enlarged m m') : Extends m.moduleBody.assignmentList m'.moduleBody.assignmentList where
  get n a ha := by
    rw [get_find] at ha ⊢
    have h1 := h.list.subset (List.mem_of_find?_eq_some ha)
    have hn : a.name = n := by simpa using List.find?_some ha
    cases hb : m'.moduleBody.assignmentList.find? (fun x => x.name == n) with
    | none =>
      rw [List.find?_eq_none] at hb
      exact absurd (by simpa using hn) (hb a h1)
    | some b =>
      have hn' : b.name = n := by simpa using List.find?_some hb
      rw [h.oneEach a h1 b (List.mem_of_find?_eq_some hb) (hn.trans hn'.symm)]
  time n hn ha := by
    rw [get_find] at ha ⊢
    rw [List.find?_eq_none] at ha ⊢
    intro b hb hbn
    have : b.name = n := by simpa using hbn
    exact ha b (h.times b hb (by rw [this]; exact hn)) hbn

theorem ownDecls_file {reqs : List Str} {ds : List GoDecl} {name : Str} (h : ∀ p, GoDecl.imp p ∉ ds) :
    ownDecls ⟨name, reqs.map GoDecl.imp ++ ds⟩ = ds := by
  unfold ownDecls
  rw [List.filter_append, List.filter_eq_nil_iff.2, List.nil_append, List.filter_eq_self]
  · intro d hd
    cases d with
    | imp p => exact absurd hd (h p)
    | _ => rfl
  · intro d hd
    obtain ⟨p, _, rfl⟩ := List.mem_map.1 hd
    simp

/-- C86: if assignments are added to a module, all declarations made before are made again, in the same order. -/
theorem C86_added (u : Casing) (k k' : Nat) (p : GenParams) (m m' : Module) (f f' : GoFile) (hm : Enlarged m m')
    (h : generateFile u k p m = some (.ok f)) (h' : generateFile u k' p m' = some (.ok f')) :
    (ownDecls f).Sublist (ownDecls f') ∧ ∀ d ∈ f.decls, d ∈ f'.decls := by
  obtain ⟨fuel, hk, hk'⟩ : ∃ n, k ≤ n ∧ k' ≤ n := ⟨max k k', le_max_left _ _, le_max_right _ _⟩
  replace h := generateFile_mono hk h
  replace h' := generateFile_mono hk' h'
  unfold generateFile at h h'
  split at h
  · cases h
  split at h'
  · cases h'
  simp only at h h'
  split at h
  · cases h
  rename_i ds log hg
  split at h'
  · cases h'
  rename_i ds' log' hg'
  split at h
  · cases h
  rename_i he
  split at h'
  · cases h'
  rename_i he'
  cases h
  cases h'
  rw [← hm.tags] at hg'
  obtain ⟨k1, k2⟩ := decls_ext (c := ⟨u, fuel, m.tagDefault, [], p.integerRepr⟩) hm.extends hm.list hg (by simpa using he) hg'
  rw [ownDecls_file fun q => decls_own hg, ownDecls_file fun q => decls_own hg']
  refine ⟨k1, fun d hd => ?_⟩
  rcases List.mem_append.1 hd with hd | hd
  · obtain ⟨q, hq, rfl⟩ := List.mem_map.1 hd
    refine List.mem_append_left _ (List.mem_map.2 ⟨q, ?_, rfl⟩)
    rw [requiredFrom_mem] at hq ⊢
    exact hq.imp id fun hq => k2.subset hq
  · exact List.mem_append_right _ (k1.subset hd)

/-- `A ::= SEQUENCE { a B }`, `B ::= BIT STRING` -/
def smallModule : Module := moduleOf 0 [.type (c! "A") (.sequence [comp (c! "a") (.ref (c! "B"))] []), .type (c! "B") (.bitString [])]
/-- The same with `C ::= SEQUENCE OF A` between them and `x BOOLEAN ::= TRUE` after them. -/
def largeModule : Module := moduleOf 0 [.type (c! "A") (.sequence [comp (c! "a") (.ref (c! "B"))] []), .type (c! "C") (.sequenceOf (.ref (c! "A"))),
  .type (c! "B") (.bitString []), .value (c! "x") .boolean (.boolean true)]

/-- The hypotheses are met. -/
theorem small_large : Enlarged smallModule largeModule where
  tags := rfl
  list := .cons_cons _ (.cons _ (.cons_cons _ (.cons _ .slnil)))
  oneEach := by
    intro a ha b hb
    simp only [largeModule, moduleOf, List.mem_cons, List.not_mem_nil, or_false] at ha hb
    rcases ha with rfl | rfl | rfl | rfl <;> rcases hb with rfl | rfl | rfl | rfl <;> first | exact fun _ => rfl | (intro h; exact absurd h (by decide))
  times := by
    intro a ha
    simp only [largeModule, moduleOf, List.mem_cons, List.not_mem_nil, or_false] at ha
    rcases ha with rfl | rfl | rfl | rfl <;> intro h <;> exact absurd h (by unfold TimeName; decide)

example : ∃ f f', generateFile asciiCasing 6 int64Params smallModule = some (.ok f) ∧ generateFile asciiCasing 6 int64Params largeModule = some (.ok f') ∧
    (ownDecls f).length = 2 ∧ (ownDecls f').length = 4 ∧ (ownDecls f).Sublist (ownDecls f') :=
  ⟨_, _, rfl, rfl, rfl, rfl, (C86_added asciiCasing 6 6 int64Params smallModule largeModule _ _ small_large rfl rfl).1⟩

/-- `A ::= GeneralizedTime`, `B ::= CHOICE { a A }` -/
def timeless : Module := moduleOf 0 [.type (c! "A") (.ref (c! "GeneralizedTime")), .type (c! "B") (.choice [.mk (c! "a") (.ref (c! "A"))] [])]
/-- The same with `GeneralizedTime ::= INTEGER`. -/
def timed : Module := moduleOf 0 [.type (c! "A") (.ref (c! "GeneralizedTime")), .type (c! "B") (.choice [.mk (c! "a") (.ref (c! "A"))] []),
  .type (c! "GeneralizedTime") (.integer [])]

def timelessFile : GoFile := ⟨c! "My_Mod", [.imp (c! "time"), .type [⟨c! "A", true, .ident (c! "time.Time")⟩],
  .type [⟨c! "B", true, .ident (c! "asn1.RawValue")⟩]]⟩
def timedFile : GoFile := ⟨c! "My_Mod", [.imp (c! "time"), .type [⟨c! "A", true, .ident (c! "time.Time")⟩],
  .type [⟨c! "B", true, .ident (c! "time.Time")⟩], .type [⟨c! "GeneralizedTime", true, .ident (c! "int64")⟩]]⟩

/-- A time type that is added can change declarations made before. -/
theorem C86_needed : generateFile asciiCasing 6 int64Params timeless = some (.ok timelessFile) ∧
    generateFile asciiCasing 6 int64Params timed = some (.ok timedFile) ∧
    (.type [⟨c! "B", true, .ident (c! "asn1.RawValue")⟩]) ∈ timelessFile.decls ∧ (.type [⟨c! "B", true, .ident (c! "asn1.RawValue")⟩]) ∉ timedFile.decls :=
  ⟨rfl, rfl, by simp [timelessFile], by simp [timedFile]⟩

end Asn1go.Props
