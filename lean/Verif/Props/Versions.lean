import Verif.Props.Again
import Verif.Proofs.Codegen.Order
import Mathlib.Data.List.Forall2

/-! Properties of two versions of a SEQUENCE type, the newer one with components added at the end: C94. -/

namespace Asn1go.Props

open Spec CG Enco Deco

/-! ### C94: older and newer versions of a SEQUENCE type -/

/-- `Newer l n n' cs ds`: `n` and `n'` are SEQUENCE types, `n` with the components `cs`, and `n'` with these and then `ds`; it does not matter
which of them stand before an extension marker and which after it. -/
inductive Newer (l : List MAssignment) (n n' : Str) (cs ds : List MComponent) : Prop
  | mk (a b a' b' : List MComponent) : Assigned l n (.sequence a b) → Assigned l n' (.sequence a' b') → a ++ b = cs → a' ++ b' = cs ++ ds → Newer l n n' cs ds

theorem generateFields_append {c : GenCtx} : ∀ {a b : List MComponent} {fs : List GoField} {log : List Event}, generateFields c (a ++ b) = some (fs, log) ↔
    ∃ f1 l1 f2 l2, generateFields c a = some (f1, l1) ∧ generateFields c b = some (f2, l2) ∧ fs = f1 ++ f2 ∧ log = l1 ++ l2
  | [], b, fs, log => by
    simp only [List.nil_append, generateFields, pure_some]
    constructor
    · exact fun h => ⟨[], [], fs, log, ⟨rfl, rfl⟩, h, rfl, rfl⟩
    · rintro ⟨_, _, _, _, ⟨rfl, rfl⟩, h, rfl, rfl⟩
      exact h
  | .named (.mk name t) o d :: a, b, fs, log => by
    simp only [List.cons_append, generateFields, bind_some, pure_some, generateFields_append (a := a)]
    constructor
    · rintro ⟨e, l1, _, h1, ⟨tag, l2, _, h2, ⟨_, _, _, ⟨f1, k1, f2, k2, h3, h4, rfl, rfl⟩, ⟨rfl, rfl⟩, rfl⟩, rfl⟩, rfl⟩
      exact ⟨_, _, f2, k2, ⟨e, l1, _, h1, ⟨tag, l2, _, h2, ⟨f1, k1, _, h3, ⟨rfl, rfl⟩, rfl⟩, rfl⟩, rfl⟩, h4, by simp, by simp⟩
    · rintro ⟨_, _, f2, k2, ⟨e, l1, _, h1, ⟨tag, l2, _, h2, ⟨f1, k1, _, h3, ⟨rfl, rfl⟩, rfl⟩, rfl⟩, rfl⟩, h4, rfl, rfl⟩
      exact ⟨e, l1, _, h1, ⟨tag, l2, _, h2, ⟨_, _, _, ⟨f1, k1, f2, k2, h3, h4, rfl, rfl⟩, ⟨rfl, rfl⟩, rfl⟩, rfl⟩, by simp⟩
  | .componentsOf t :: a, b, fs, log => by
    simp only [List.cons_append, generateFields, bind_some, generateFields_append (a := a)]
    constructor
    · rintro ⟨e, l1, _, h1, ⟨f1, k1, f2, k2, h3, h4, rfl, rfl⟩, rfl⟩
      exact ⟨f1, _, f2, k2, ⟨e, l1, _, h1, h3, rfl⟩, h4, rfl, by simp⟩
    · rintro ⟨f1, _, f2, k2, ⟨e, l1, _, h1, h3, rfl⟩, h4, rfl, rfl⟩
      exact ⟨e, l1, _, h1, ⟨f1, _, f2, k2, h3, h4, rfl, rfl⟩, by simp⟩
  | .nil :: a, b, fs, log => by
    simp only [List.cons_append, generateFields, generateFields_append (a := a)]

theorem sequence_fields {c : GenCtx} {a b : List MComponent} {x : GoExpr × Bool} {log : List Event} (h : generateTypeBody c (.sequence a b) = some (x, log)) :
    ∃ fs, x = (.struct fs, false) ∧ generateFields c (a ++ b) = some (fs, log) := by
  simp only [generateTypeBody, bind_some, pure_some] at h
  obtain ⟨f1, l1, _, h1, ⟨f2, l2, _, h2, ⟨rfl, rfl⟩, rfl⟩, rfl⟩ := h
  exact ⟨_, rfl, generateFields_append.2 ⟨f1, l1, f2, l2, h1, h2, rfl, by simp⟩⟩

theorem decls_chunk {c : GenCtx} {x : MAssignment} : ∀ {as : List MAssignment} {ds : List GoDecl} {log : List Event},
    generateDeclarations c as = some (ds, log) → x ∈ as → ∃ d1 l1, chunk c x = some (d1, l1) ∧ ∀ d ∈ d1, d ∈ ds
  | [], _, _, _, hx => by cases hx
  | a :: as, ds, log, h, hx => by
    obtain ⟨d1, l1, d2, l2, h1, h2, rfl, rfl⟩ := decls_cons.1 h
    rcases List.mem_cons.1 hx with rfl | hx
    · exact ⟨d1, l1, h1, fun d hd => List.mem_append_left _ hd⟩
    · obtain ⟨e, k, h3, h4⟩ := decls_chunk h2 hx
      exact ⟨e, k, h3, fun d hd => List.mem_append_right _ (h4 d hd)⟩

theorem sequence_chunk {c : GenCtx} {n : Str} {a b : List MComponent} {ds : List GoDecl} {log : List Event}
    (h : chunk c (.type n (.sequence a b)) = some (ds, log)) : ∃ fs l1, generateFields c (a ++ b) = some (fs, l1) ∧
      .type [⟨goifyName c.u n, false, .struct fs⟩] ∈ ds := by
  simp only [chunk, generateTypeDecl, bind_some, pure_some] at h
  obtain ⟨_, l1, _, ⟨x, l2, _, h1, h2, rfl⟩, ⟨v, l3, _, -, ⟨rfl, rfl⟩, rfl⟩, rfl⟩ := h
  obtain ⟨fs, rfl, h3⟩ := sequence_fields h1
  simp only [Bool.false_eq_true, if_false, pure_some] at h2
  obtain ⟨rfl, rfl⟩ := h2
  exact ⟨fs, _, h3, by simp [isStruct]⟩

theorem fields_length {c : GenCtx} : ∀ {a : List MComponent} {fs : List GoField} {log : List Event}, generateFields c a = some (fs, log) →
    fs.length = (members a).length
  | [], fs, log, h => by
    simp only [generateFields, pure_some] at h
    obtain ⟨rfl, -⟩ := h
    rfl
  | .named (.mk name t) o d :: a, fs, log, h => by
    simp only [generateFields, bind_some, pure_some] at h
    obtain ⟨e, l1, _, -, ⟨tag, l2, _, -, ⟨f1, k1, _, h3, ⟨rfl, rfl⟩, rfl⟩, rfl⟩, rfl⟩ := h
    exact congrArg (· + 1) (fields_length h3)
  | .componentsOf t :: a, fs, log, h => by
    simp only [generateFields, bind_some] at h
    obtain ⟨e, l1, _, -, h3, rfl⟩ := h
    exact fields_length (a := a) h3
  | .nil :: a, fs, log, h => by
    simp only [generateFields] at h
    exact fields_length (a := a) h

/-- The struct of the newer type has the fields of that of the older one, and then others. -/
theorem newer_structs {u : Casing} {fuel : Nat} {p : GenParams} {m : Module} {f : GoFile} (h : generateFile u fuel p m = some (.ok f)) {n n' : Str}
    {cs ds : List MComponent} (hn : Newer m.moduleBody.assignmentList n n' cs ds) :
    ∃ fs gs, fs.length = (members cs).length ∧ Declares f ⟨goifyName u n, false, .struct fs⟩ ∧ Declares f ⟨goifyName u n', false, .struct (fs ++ gs)⟩ := by
  obtain ⟨a, b, a', b', h1, h2, rfl, h3⟩ := hn
  unfold generateFile at h
  split at h
  · cases h
  simp only at h
  split at h
  · cases h
  rename_i dl log hg
  split at h
  · cases h
  cases h
  obtain ⟨d1, l1, h4, h5⟩ := decls_chunk hg (List.mem_of_find?_eq_some h1)
  obtain ⟨d2, l2, h6, h7⟩ := decls_chunk hg (List.mem_of_find?_eq_some h2)
  obtain ⟨fs, k1, h8, h9⟩ := sequence_chunk h4
  obtain ⟨fs', k2, h10, h11⟩ := sequence_chunk h6
  rw [h3] at h10
  obtain ⟨f1, _, gs, _, h12, -, rfl, -⟩ := generateFields_append.1 h10
  cases h12.symm.trans h8
  exact ⟨fs, gs, fields_length h8, ⟨_, List.mem_append_right _ (h5 _ h9), by simp⟩, ⟨_, List.mem_append_right _ (h7 _ h11), by simp⟩⟩

theorem readsFields_split {f : GoFile} {u : Casing} : ∀ {fs gs : List GoField} {b : Bytes} {vs : List GoFieldVal} {rest : Bytes},
    ReadsFields f u (fs ++ gs) b vs rest → ∃ v1 v2 r, vs = v1 ++ v2 ∧ ReadsFields f u fs b v1 r ∧ v1.length = fs.length ∧ ReadsFields f u gs r v2 rest
  | [], _, b, vs, _, h => ⟨[], vs, b, rfl, .nil _, rfl, h⟩
  | _ :: fs, gs, _, _, _, .cons n e tag _ b b' rest v vs h1 h2 h3 => by
    obtain ⟨v1, v2, r, rfl, h4, h5, h6⟩ := readsFields_split h3
    exact ⟨.mk n tag v :: v1, v2, r, rfl, .cons n e tag _ b b' r v v1 h1 h2 h4, by simp [h5], h6⟩

/-- What is read into the newer type, from whatever octets, is read into the older type too: its fields are the first of those of the
newer one, and the same octets are left. -/
theorem C94_older_reads (u : Casing) (fuel : Nat) (p : GenParams) (m : Module) (f : GoFile) (h : generateFile u fuel p m = some (.ok f))
    (hn : NamesOk u m.moduleBody.assignmentList) (hv : NoValName m.moduleBody.assignmentList) (n n' : Str) (cs ds : List MComponent)
    (hw : Newer m.moduleBody.assignmentList n n' cs ds) (b : Bytes) (v : GoVal) (rest : Bytes) (hr : Unmarshals f u (.ident (goifyName u n')) b v rest) :
    ∃ vs ws, v = .struct (vs ++ ws) ∧ vs.length = (members cs).length ∧ ∀ v' rest', Unmarshals f u (.ident (goifyName u n)) b v' rest' ↔ v' = .struct vs ∧ rest' = rest := by
  obtain ⟨fs, gs, h0, h1, h2⟩ := newer_structs h hw
  have cx := context (strict := false) (op := .none) (s := fun _ => False) h hn (fun _ hb => hb.elim)
  have hd := C67_distinct_partial u fuel p m f h hn.named hn.noSetClash hv
  have hdot : ∀ sp, Declares f sp → '.' ∉ sp.name := fun sp hs => (not_declared cx (n := sp.name) hs).2
  have hu : Underlies f (.ident (goifyName u n)) (goifyName u n) (.struct fs) := .defined _ _ _ _ h1 (.struct _) trivial
  have hu' : Underlies f (.ident (goifyName u n')) (goifyName u n') (.struct (fs ++ gs)) := .defined _ _ _ _ h2 (.struct _) trivial
  cases hr with
  | missing _ _ _ _ _ z h3 h4 h5 => cases h5
  | raw _ _ _ _ _ _ _ h3 => cases (under_unique hd hdot hu' h3).2
  | iface _ _ _ _ _ _ _ h3 => cases (under_unique hd hdot hu' h3).2
  | element _ _ _ _ k tag compound t c _ _ h3 h4 h5 h6 =>
    obtain ⟨rfl, rfl⟩ := under_unique hd hdot hu' h3
    cases h4
    cases h6 with
    | simple _ _ _ _ _ h7 => cases h7
    | struct _ _ _ _ r vs h7 =>
      obtain ⟨v1, v2, r', rfl, h8, h8', -⟩ := readsFields_split h7
      have key : Unmarshals f u (.ident (goifyName u n)) b (.struct v1) rest := .element _ _ _ _ _ _ _ _ _ _ _ hu rfl h5 (.struct _ _ _ _ r' _ h8)
      refine ⟨v1, v2, rfl, h8'.trans h0, fun v' rest' => ⟨fun h9 => C82_unique u fuel p m f h hn hv _ _ _ _ _ _ h9 key, ?_⟩⟩
      rintro ⟨rfl, rfl⟩
      exact key

theorem encMembers_append {strict : Bool} {l : List MAssignment} {d : Int} {xs ys : List Member} {vs ws : List (Option AsnVal)} {es es' : List (AsnTag × Bytes)}
    (h : EncMembers strict l d xs vs es) (h' : EncMembers strict l d ys ws es') : EncMembers strict l d (xs ++ ys) (vs ++ ws) (es ++ es') := by
  cases h with
  | nil => exact h'
  | present x v tag k c e xs vs es h1 h2 h3 h4 => exact .present x v tag k c e _ _ _ h1 h2 h3 (encMembers_append h4 h')
  | absent x xs vs es h1 h2 => exact .absent x _ _ _ h1 (encMembers_append h2 h')
  | default x v dv xs vs es h1 h2 h3 => exact .default x v dv _ _ _ h1 h2 (encMembers_append h3 h')

theorem means_split {l : List MAssignment} {B : Held} : ∀ {xs ys : List Member} {vs ws : List GoFieldVal} {zs : List (Option AsnVal)}, vs.length = xs.length →
    MeansMembers l B (xs ++ ys) (vs ++ ws) zs → MeansMembers l B xs vs (zs.take xs.length)
  | [], _, [], _, _, _, _ => by simpa using .nil
  | _ :: xs, ys, .mk n tag v :: vs, ws, _, h, h' => by
    cases h' with
    | present _ _ _ _ _ _ a zs h1 h2 h3 => exact .present _ _ n tag v _ a _ h1 h2 (means_split (Nat.succ.inj h) h3)
    | absent _ _ _ _ _ _ zs h1 h2 h3 => exact .absent _ _ n tag v _ _ h1 h2 (means_split (Nat.succ.inj h) h3)

theorem same_members_refl {l : List MAssignment} : ∀ {xs : List Member} {zs : List (Option AsnVal)}, zs.length = xs.length → SameMembers l xs zs zs
  | [], [], _ => .nil
  | _ :: _, none :: _, h => .absent _ _ _ _ (same_members_refl (Nat.succ.inj h))
  | _ :: _, some _ :: _, h => .present _ _ _ _ _ _ (.refl _ _) (same_members_refl (Nat.succ.inj h))

theorem same_split {l : List MAssignment} : ∀ {xs ys : List Member} {vs ws : List (Option AsnVal)}, SameMembers l (xs ++ ys) vs ws →
    SameMembers l xs (vs.take xs.length) (ws.take xs.length)
  | [], _, _, _, _ => by simpa using .nil
  | _ :: _, ys, _, _, .present _ _ _ _ _ _ h1 h2 => .present _ _ _ _ _ _ h1 (same_split (ys := ys) h2)
  | _ :: _, ys, _, _, .absent _ _ _ _ h2 => .absent _ _ _ _ (same_split (ys := ys) h2)

theorem encMembers_length {strict : Bool} {l : List MAssignment} {d : Int} : ∀ {xs : List Member} {vs : List (Option AsnVal)} {es : List (AsnTag × Bytes)},
    EncMembers strict l d xs vs es → vs.length = xs.length
  | _, _, _, .nil => rfl
  | _, _, _, .present _ _ _ _ _ _ _ _ _ _ _ _ h => congrArg (· + 1) (encMembers_length h)
  | _, _, _, .absent _ _ _ _ _ h => congrArg (· + 1) (encMembers_length h)
  | _, _, _, .default _ _ _ _ _ _ _ _ h => congrArg (· + 1) (encMembers_length h)

theorem record_encoded {strict : Bool} {l : List MAssignment} {d : Int} {n : Str} {a b : List MComponent} {x : AsnVal} {bs : Bytes}
    (hn : Assigned l n (.sequence a b)) (h : Encodes strict l d (.ref n) x bs) :
    ∃ vs es, x = .record vs ∧ EncMembers strict l d (members (a ++ b)) vs es ∧ Encoding ⟨0, 16⟩ true (es.flatMap Prod.snd) bs := by
  obtain ⟨tag, k, c, h1, h2⟩ := h
  generalize ht : (Ty.ref n : MTy) = t at h1
  cases h1 <;> cases ht
  · rename_i h3 h4
    exact absurd hn (h3 _)
  · rename_i h4 h3
    cases assigned_unique hn h3
    cases h4
    rename_i vs es h5
    exact ⟨vs, es, rfl, h5, h2⟩

/-- C94: from the encoding by DER of a value of the newer type a Go value of the older type is read that stands for the value without
the components that were added; the conditions are those under which it is read as a value of the newer type. -/
theorem C94_older_understands (u : Casing) (fuel : Nat) (p : GenParams) (m : Module) (f : GoFile) (h : generateFile u fuel p m = some (.ok f))
    (hn : NamesOk u m.moduleBody.assignmentList) (hv : NoValName m.moduleBody.assignmentList)
    (hzero : ∀ a t, .type a t ∈ m.moduleBody.assignmentList → OptionalsZero m.moduleBody.assignmentList t)
    (hread : ∀ a t, .type a t ∈ m.moduleBody.assignmentList → Readable m.moduleBody.assignmentList m.tagDefault t)
    (n n' : Str) (cs ds : List MComponent) (hw : Newer m.moduleBody.assignmentList n n' cs ds)
    (op : Open) (hlim : op.Limited) (ha : Encodable true op m.moduleBody.assignmentList m.tagDefault p.integerRepr n') (xs : List (Option AsnVal))
    (hif : op.iface = true → InterfacesRead m.moduleBody.assignmentList p.integerRepr (.ref n') (.record xs))
    (bs : Bytes) (hx : Encodes true m.moduleBody.assignmentList m.tagDefault (.ref n') (.record xs) bs)
    (hf : ReadFits m.moduleBody.assignmentList p.integerRepr (.ref n') (.record xs))
    (ht : OptionalsTold m.moduleBody.assignmentList p.integerRepr (.ref n') (.record xs)) (hl : bs.length < 2147483648) (rest : Bytes) :
    ∃ v x', Unmarshals f u (.ident (goifyName u n)) (bs ++ rest) v rest ∧
      Stands true u m.moduleBody.assignmentList m.tagDefault p.integerRepr f (.ref n) v x' ∧
      Same m.moduleBody.assignmentList (.ref n) (.record (xs.take (members cs).length)) x' := by
  obtain ⟨v, x', h1, h2, h3⟩ := C82_read_partial u fuel p m f h hn hzero hread op hlim n' ha (.record xs) hif bs hx hf ht hl rest
  obtain ⟨vs, ws, rfl, h4, h5⟩ := C94_older_reads u fuel p m f h hn hv n n' cs ds hw _ _ _ h1
  obtain ⟨a, b, a', b', k1, k2, rfl, k3⟩ := hw
  obtain ⟨xs', es, hxs, k4, -⟩ := record_encoded k2 hx
  cases hxs
  generalize hr : (Ty.ref n' : MTy) = t at h2
  cases h2 <;> cases hr
  rename_i h7 h6
  cases assigned_unique k2 h6
  cases h7
  rename_i ys h8
  rw [k3, CG.members_append] at h8
  have h9 : SameMembers m.moduleBody.assignmentList (members (a' ++ b')) xs ys := by
    generalize hr : (Ty.ref n' : MTy) = t at h3
    cases h3 <;> cases hr
    · exact same_members_refl (encMembers_length k4)
    · rename_i h11 h10
      cases assigned_unique k2 h10
      cases h11 with
      | refl => exact same_members_refl (encMembers_length k4)
      | sequence _ _ _ _ h12 => exact h12
  rw [k3, CG.members_append] at h9
  exact ⟨.struct vs, .record (ys.take (members (a ++ b)).length), (h5 _ _).2 ⟨rfl, rfl⟩, .ref _ _ _ _ k1 (.sequence _ _ _ _ (means_split h4 h8)),
    .ref _ _ _ _ k1 (.sequence _ _ _ _ (same_split h9))⟩

/-- An encoding of a value of the older type is one of a value of the newer type, the components that were added being absent or having
their DEFAULT values, if all of them are OPTIONAL or have DEFAULT values. -/
theorem C94_newer_encodes (strict : Bool) (l : List MAssignment) (d : Int) (n n' : Str) (cs ds : List MComponent) (hw : Newer l n n' cs ds)
    (xs ys : List (Option AsnVal)) (bs : Bytes) (hx : Encodes strict l d (.ref n) (.record xs) bs)
    (hy : List.Forall₂ (fun (x : Member) y => (x.optional = true ∧ y = none) ∨ ∃ dv v, x.default = some dv ∧ DefaultIs l x.type dv v ∧ y = some v) (members ds) ys) :
    Encodes strict l d (.ref n') (.record (xs ++ ys)) bs := by
  obtain ⟨a, b, a', b', k1, k2, rfl, k3⟩ := hw
  obtain ⟨xs', es, hxs, k4, k5⟩ := record_encoded k1 hx
  cases hxs
  have k6 : EncMembers strict l d (members ds) ys [] := by
    clear k3
    generalize members ds = zs at hy
    induction hy with
    | nil => exact .nil
    | cons h1 _ ih =>
      rcases h1 with ⟨h1, rfl⟩ | ⟨dv, v, h1, h2, rfl⟩
      · exact .absent _ _ _ _ h1 ih
      · exact .default _ _ _ _ _ _ h1 h2 ih
  refine ⟨_, _, _, .ref _ _ _ _ _ _ k2 (.sequence _ _ _ (es ++ []) ?_), ?_⟩
  · rw [k3, CG.members_append]
    exact encMembers_append k4 k6
  · simpa using k5

/-- C94: from the encoding by DER of a value of the older type a Go value of the newer type is read that stands for the value with the
added components absent or with their DEFAULT values. -/
theorem C94_newer_understands (u : Casing) (fuel : Nat) (p : GenParams) (m : Module) (f : GoFile) (h : generateFile u fuel p m = some (.ok f))
    (hn : NamesOk u m.moduleBody.assignmentList)
    (hzero : ∀ a t, .type a t ∈ m.moduleBody.assignmentList → OptionalsZero m.moduleBody.assignmentList t)
    (hread : ∀ a t, .type a t ∈ m.moduleBody.assignmentList → Readable m.moduleBody.assignmentList m.tagDefault t)
    (n n' : Str) (cs ds : List MComponent) (hw : Newer m.moduleBody.assignmentList n n' cs ds)
    (op : Open) (hlim : op.Limited) (ha : Encodable true op m.moduleBody.assignmentList m.tagDefault p.integerRepr n') (xs ys : List (Option AsnVal))
    (hy : List.Forall₂ (fun (x : Member) y => (x.optional = true ∧ y = none) ∨
      ∃ dv v, x.default = some dv ∧ DefaultIs m.moduleBody.assignmentList x.type dv v ∧ y = some v) (members ds) ys)
    (hif : op.iface = true → InterfacesRead m.moduleBody.assignmentList p.integerRepr (.ref n') (.record (xs ++ ys)))
    (bs : Bytes) (hx : Encodes true m.moduleBody.assignmentList m.tagDefault (.ref n) (.record xs) bs)
    (hf : ReadFits m.moduleBody.assignmentList p.integerRepr (.ref n') (.record (xs ++ ys)))
    (ht : OptionalsTold m.moduleBody.assignmentList p.integerRepr (.ref n') (.record (xs ++ ys))) (hl : bs.length < 2147483648) (rest : Bytes) :
    ∃ v x', Unmarshals f u (.ident (goifyName u n')) (bs ++ rest) v rest ∧
      Stands true u m.moduleBody.assignmentList m.tagDefault p.integerRepr f (.ref n') v x' ∧
      Same m.moduleBody.assignmentList (.ref n') (.record (xs ++ ys)) x' :=
  C82_read_partial u fuel p m f h hn hzero hread op hlim n' ha _ hif bs (C94_newer_encodes true _ _ n n' cs ds hw xs ys bs hx hy) hf ht hl rest

/-! ### A module that meets the conditions -/

/-- `a BOOLEAN` -/
def flagMembers : List MComponent := [comp (c! "a") .boolean]
/-- `b OCTET STRING OPTIONAL` -/
def addedMembers : List MComponent := [.named (.mk (c! "b") .octetString) true none]
/-- `A ::= SEQUENCE { a BOOLEAN }  B ::= SEQUENCE { a BOOLEAN, ..., b OCTET STRING OPTIONAL }` -/
def twoVersions : List MAssignment := [.type (c! "A") (.sequence flagMembers []), .type (c! "B") (.sequence flagMembers addedMembers)]

def twoFile : GoFile := ⟨c! "My_Mod", [.type [⟨c! "A", false, .struct [.mk (c! "A") (.ident (c! "bool")) none]⟩],
  .type [⟨c! "B", false, .struct [.mk (c! "A") (.ident (c! "bool")) none, .mk (c! "B") (.array (.ident (c! "byte"))) (some (c! "`asn1:\"optional\"`"))]⟩]]⟩

theorem two_file : generateFile asciiCasing 20 int64Params (moduleOf TAGS_IMPLICIT twoVersions) = some (.ok twoFile) := rfl

theorem two_A : Assigned twoVersions (c! "A") (.sequence flagMembers []) := by simp [Assigned, twoVersions, Assignment.name]
theorem two_B : Assigned twoVersions (c! "B") (.sequence flagMembers addedMembers) := by simp [Assigned, twoVersions, Assignment.name]

theorem two_newer : Newer twoVersions (c! "A") (c! "B") flagMembers addedMembers := .mk _ _ _ _ two_A two_B rfl rfl

theorem versions_members {n : Str} {a b : List MComponent} {t : MTy} (hm : .type n t ∈ twoVersions) (hi : Inside twoVersions t (.sequence a b) ∨ Inside twoVersions t (.set a b)) :
    members (a ++ b) = [⟨c! "a", .boolean, false, none⟩] ∨ members (a ++ b) = [⟨c! "a", .boolean, false, none⟩, ⟨c! "b", .octetString, true, none⟩] := by
  simp only [twoVersions, List.mem_cons, Assignment.type.injEq, List.not_mem_nil, or_false] at hm
  rcases hm with ⟨rfl, rfl⟩ | ⟨rfl, rfl⟩
  · rcases hi with hi | hi
    · cases hi with
      | here => exact .inl rfl
      | sequence _ _ x _ hx hi =>
        have : x ∈ [(⟨c! "a", .boolean, false, none⟩ : Member)] := hx
        simp only [List.mem_cons, List.not_mem_nil, or_false] at this
        subst this
        cases hi
    · cases hi with
      | sequence _ _ x _ hx hi =>
        have : x ∈ [(⟨c! "a", .boolean, false, none⟩ : Member)] := hx
        simp only [List.mem_cons, List.not_mem_nil, or_false] at this
        subst this
        cases hi
  · rcases hi with hi | hi
    · cases hi with
      | here => exact .inr rfl
      | sequence _ _ x _ hx hi =>
        have : x ∈ [(⟨c! "a", .boolean, false, none⟩ : Member), ⟨c! "b", .octetString, true, none⟩] := hx
        simp only [List.mem_cons, List.not_mem_nil, or_false] at this
        rcases this with rfl | rfl <;> cases hi
    · cases hi with
      | sequence _ _ x _ hx hi =>
        have : x ∈ [(⟨c! "a", .boolean, false, none⟩ : Member), ⟨c! "b", .octetString, true, none⟩] := hx
        simp only [List.mem_cons, List.not_mem_nil, or_false] at this
        rcases this with rfl | rfl <;> cases hi

theorem two_lists {n : Str} {t t' : MTy} (hm : .type n t ∈ twoVersions) : ¬ (Inside twoVersions t (.sequenceOf t') ∨ Inside twoVersions t (.setOf t')) := by
  intro hi
  simp only [twoVersions, List.mem_cons, Assignment.type.injEq, List.not_mem_nil, or_false] at hm
  have key : ∀ x, x ∈ members (flagMembers ++ []) ∨ x ∈ members (flagMembers ++ addedMembers) → x.type = .boolean ∨ x.type = .octetString := by
    intro x hx
    have : x ∈ [(⟨c! "a", .boolean, false, none⟩ : Member)] ∨ x ∈ [(⟨c! "a", .boolean, false, none⟩ : Member), ⟨c! "b", .octetString, true, none⟩] := hx
    simp only [List.mem_cons, List.not_mem_nil, or_false] at this
    rcases this with rfl | rfl | rfl <;> simp
  rcases hm with ⟨rfl, rfl⟩ | ⟨rfl, rfl⟩ <;> rcases hi with hi | hi <;> cases hi <;> rename_i x hx hi
  all_goals
    rcases key x (by first | exact .inl hx | exact .inr hx) with h | h <;> rw [h] at hi <;> cases hi

theorem two_names : NamesOk asciiCasing twoVersions where
  named :=
    { types := by decide
      values := by decide
      typeName := by
        intro r hr
        have : r ∈ [c! "A", c! "B"] := hr
        simp only [List.mem_cons, List.not_mem_nil, or_false] at this
        rcases this with rfl | rfl <;>
          exact upperName_of ⟨_, _, rfl, by decide⟩ (by decide) (by decide) (by decide) (by decide) (by decide)
      valueName := by simp [valueNames, twoVersions]
      numbers := by
        intro r t nums hm hc
        simp only [twoVersions, List.mem_cons, Assignment.type.injEq, List.not_mem_nil, or_false] at hm
        rcases hm with ⟨rfl, rfl⟩ | ⟨rfl, rfl⟩ <;> cases hc
      number := by
        intro r t nums hm hc
        simp only [twoVersions, List.mem_cons, Assignment.type.injEq, List.not_mem_nil, or_false] at hm
        rcases hm with ⟨rfl, rfl⟩ | ⟨rfl, rfl⟩ <;> cases hc }
  noSetClash := by
    intro r t hm _
    simp only [twoVersions, List.mem_cons, Assignment.type.injEq, List.not_mem_nil, or_false] at hm
    rcases hm with ⟨rfl, rfl⟩ | ⟨rfl, rfl⟩ <;> decide
  noTime := by
    intro a ha
    have : a ∈ [c! "A", c! "B"] := ha
    simp only [List.mem_cons, List.not_mem_nil, or_false] at this
    rcases this with rfl | rfl <;> simp [TimeName]
  members := by
    intro n t hm a b hi
    rcases versions_members hm hi with h | h <;> rw [h]
    · refine ⟨by decide, fun x hx => ?_⟩
      simp only [List.mem_cons, List.not_mem_nil, or_false] at hx
      subst hx
      exact lowerName_of ⟨_, _, rfl, by decide⟩ (by decide) (by decide) (by decide) (by decide) (by decide)
    · refine ⟨by decide, fun x hx => ?_⟩
      simp only [List.mem_cons, List.not_mem_nil, or_false] at hx
      rcases hx with rfl | rfl <;> exact lowerName_of ⟨_, _, rfl, by decide⟩ (by decide) (by decide) (by decide) (by decide) (by decide)

theorem two_valName : NoValName twoVersions := by
  intro r hr
  have : r ∈ [c! "A", c! "B"] := hr
  simp only [List.mem_cons, List.not_mem_nil, or_false] at this
  rcases this with rfl | rfl <;> decide

theorem two_zero : ∀ a t, .type a t ∈ twoVersions → OptionalsZero twoVersions t := by
  intro n t hm a b hi x hx ho
  rcases versions_members hm hi with h | h <;> rw [h] at hx <;> simp only [List.mem_cons, List.not_mem_nil, or_false] at hx
  · subst hx; cases ho
  · rcases hx with rfl | rfl
    · cases ho
    · exact .octetString

theorem two_readable : ∀ a t, .type a t ∈ twoVersions → Readable twoVersions TAGS_IMPLICIT t := by
  intro n t hm
  refine ⟨fun a b hi => ?_, fun t' hi => absurd hi (two_lists hm)⟩
  rcases versions_members hm hi with h | h <;> rw [h]
  · refine ⟨?_, ?_, fun hc => ?_, trivial⟩
    · intro x hx g hg
      simp only [List.mem_cons, List.not_mem_nil, or_false] at hx
      subst hx
      simp [tagsAround] at hg
    · intro x hx g hg
      simp only [List.mem_cons, List.not_mem_nil, or_false] at hx
      subst hx
      simp [tagsAround] at hg
    · simp [CanMiss] at hc
  · refine ⟨?_, ?_, fun hc => ?_, fun _ pre y post he => ?_, trivial⟩
    · intro x hx g hg
      simp only [List.mem_cons, List.not_mem_nil, or_false] at hx
      rcases hx with rfl | rfl <;> simp [tagsAround] at hg
    · intro x hx g hg
      simp only [List.mem_cons, List.not_mem_nil, or_false] at hx
      rcases hx with rfl | rfl <;> simp [tagsAround] at hg
    · simp [CanMiss] at hc
    · cases pre <;> cases he

theorem two_encodable (strict : Bool) (op : Open) : Encodable strict op twoVersions TAGS_IMPLICIT (c! "int64") (c! "B") := by
  refine ⟨fun a => a = c! "B", rfl, ?_⟩
  have hnone : ∀ n t o, DefaultOk strict twoVersions (c! "int64") ⟨n, t, o, none⟩ := by
    intro n t o d hd; cases hd
  rintro b rfl
  refine ⟨_, two_B, ?_⟩
  simp only [flagMembers, addedMembers, comp, EncOk, EncOkMembers, EncOkTagged]
  exact ⟨⟨trivial, hnone _ _ _, by simp, trivial⟩, trivial, hnone _ _ _, (fun _ _ hi => nomatch hi), trivial⟩

/-- The values `{ a TRUE, b '07'H }` and `{ a TRUE }`. -/
def withAdded : List (Option AsnVal) := [some (.boolean true), some (.octets [7])]
def withoutAdded : List (Option AsnVal) := [some (.boolean true), none]

theorem two_part {vs : List (Option AsnVal)} (hv : vs = withAdded ∨ vs = withoutAdded) {y : AsnVal} (h : Part (.record vs) y) :
    y = .record vs ∨ y = .boolean true ∨ y = .octets [7] := by
  cases h with
  | here => exact .inl rfl
  | record _ x _ hx hp =>
    rcases hv with rfl | rfl <;> simp only [withAdded, withoutAdded, List.mem_cons, Option.some.injEq, reduceCtorEq, List.not_mem_nil, or_false] at hx
    · rcases hx with rfl | rfl <;> cases hp <;> simp
    · subst hx; cases hp; simp

theorem two_readFits {vs : List (Option AsnVal)} (hv : vs = withAdded ∨ vs = withoutAdded) : ReadFits twoVersions (c! "int64") (.ref (c! "B")) (.record vs) := by
  constructor <;> intro t' y h <;> rcases two_part hv (seen_part h) with rfl | rfl | rfl <;> constructor <;> intros <;> simp_all

theorem blank_shape {l : List MAssignment} {r : Str} : ∀ {t : MTy} {z : AsnVal}, Blank l r t z → (z = .octets [7] ∨ z = .boolean true) → False
  | _, _, .boolean, h => by simp at h
  | _, _, .integer _ _, h => by simp at h
  | _, _, .enumerated _ _, h => by simp at h
  | _, _, .string _, h => by simp at h
  | _, _, .time _, h => by simp at h
  | _, _, .ref _ _ _ _ h1, h => blank_shape h1 h
  | _, _, .constrained _ _ _ h1, h => blank_shape h1 h
  | _, _, .tagged _ _ _ _ _ h1, h => blank_shape h1 h
  | _, _, .choice _ _ _ _ _ _, h => by simp at h
  | _, _, .sequence _ _ _ _, h => by simp at h
  | _, _, .set _ _ _ _, h => by simp at h

theorem two_told {vs : List (Option AsnVal)} (hv : vs = withAdded ∨ vs = withoutAdded) : OptionalsTold twoVersions (c! "int64") (.ref (c! "B")) (.record vs) := by
  intro a b ws h m y hm ho hb
  have hy : y = .octets [7] ∨ y = .boolean true := by
    have h1 : ws = vs := by
      rcases h with h | h <;> rcases two_part hv (seen_part h) with h2 | h2 | h2 <;> cases h2 <;> rfl
    subst h1
    have := (List.of_mem_zip hm).2
    rcases hv with rfl | rfl <;> simp only [withAdded, withoutAdded, List.mem_cons, Option.some.injEq, reduceCtorEq, List.not_mem_nil, or_false] at this
    · exact this.symm
    · exact .inr this
  have key : ∀ t z, Blank twoVersions (c! "int64") t z → z ≠ .octets [7] ∧ z ≠ .boolean true := by
    intro t z hz
    refine ⟨fun h => ?_, fun h => ?_⟩ <;> subst h
    · generalize hz' : AsnVal.octets [7] = z at hz
      exact blank_shape hz (by subst hz'; simp)
    · generalize hz' : AsnVal.boolean true = z at hz
      exact blank_shape hz (by subst hz'; simp)
  rcases hy with rfl | rfl
  · exact (key _ _ hb).1 rfl
  · exact (key _ _ hb).2 rfl

/-- Octets of the newer type are read as the older type, and the other way round. -/
theorem C94_example (rest : Bytes) :
    (∃ v x', Unmarshals twoFile asciiCasing (.ident (c! "A")) ([48, 6, 1, 1, 255, 4, 1, 7] ++ rest) v rest ∧
      Stands true asciiCasing twoVersions TAGS_IMPLICIT (c! "int64") twoFile (.ref (c! "A")) v x' ∧
      Same twoVersions (.ref (c! "A")) (.record [some (.boolean true)]) x') ∧
    ∃ v x', Unmarshals twoFile asciiCasing (.ident (c! "B")) ([48, 3, 1, 1, 255] ++ rest) v rest ∧
      Stands true asciiCasing twoVersions TAGS_IMPLICIT (c! "int64") twoFile (.ref (c! "B")) v x' ∧
      Same twoVersions (.ref (c! "B")) (.record [some (.boolean true), none]) x' := by
  have e1 : EncMembers true twoVersions TAGS_IMPLICIT [⟨c! "a", .boolean, false, none⟩] [some (.boolean true)] [(⟨0, 1⟩, [1, 1, 255])] :=
    .present _ _ _ _ _ _ _ _ _ (.boolean true) ⟨[1], [1], by simp [Identifier], by simp [LengthOctets], rfl⟩ (by simp) .nil
  have e2 : EncMembers true twoVersions TAGS_IMPLICIT [⟨c! "b", .octetString, true, none⟩] [some (.octets [7])] [(⟨0, 4⟩, [4, 1, 7])] :=
    .present _ _ _ _ _ _ _ _ _ (.octetString _) ⟨[4], [1], by simp [Identifier], by simp [LengthOctets], rfl⟩ (by simp) .nil
  refine ⟨?_, ?_⟩
  · exact C94_older_understands asciiCasing 20 int64Params _ twoFile two_file two_names two_valName two_zero two_readable _ _ _ _ two_newer .none none_limited
      (two_encodable true .none) withAdded (by simp [Open.none]) [48, 6, 1, 1, 255, 4, 1, 7]
      ⟨_, _, _, .ref _ _ _ _ _ _ two_B (.sequence _ _ _ _ (encMembers_append e1 e2)), [48], [6], by simp [Identifier], by simp [LengthOctets], rfl⟩
      (two_readFits (.inl rfl)) (two_told (.inl rfl)) (by decide) rest
  · exact C94_newer_understands asciiCasing 20 int64Params _ twoFile two_file two_names two_zero two_readable _ _ _ _ two_newer .none none_limited
      (two_encodable true .none) [some (.boolean true)] [none] (.cons (.inl ⟨rfl, rfl⟩) .nil) (by simp [Open.none]) [48, 3, 1, 1, 255]
      ⟨_, _, _, .ref _ _ _ _ _ _ two_A (.sequence _ _ _ _ e1), [48], [3], by simp [Identifier], by simp [LengthOctets], rfl⟩
      (two_readFits (.inr rfl)) (two_told (.inr rfl)) (by decide) rest

/-- The same with a component `b OCTET STRING` that must not be absent. -/
def mandatory : List MAssignment := [.type (c! "A") (.sequence flagMembers []), .type (c! "B") (.sequence flagMembers [comp (c! "b") .octetString])]

def mandatoryFile : GoFile := ⟨c! "My_Mod", [.type [⟨c! "A", false, .struct [.mk (c! "A") (.ident (c! "bool")) none]⟩],
  .type [⟨c! "B", false, .struct [.mk (c! "A") (.ident (c! "bool")) none, .mk (c! "B") (.array (.ident (c! "byte"))) none]⟩]]⟩

/-- Then the newer type is not read from octets of the older one: that the components that were added can be absent is needed. -/
theorem C94_needed : generateFile asciiCasing 20 int64Params (moduleOf TAGS_IMPLICIT mandatory) = some (.ok mandatoryFile) ∧
    (∃ v, Unmarshals mandatoryFile asciiCasing (.ident (c! "A")) [48, 3, 1, 1, 255] v []) ∧
    ∀ v rest, ¬ Unmarshals mandatoryFile asciiCasing (.ident (c! "B")) [48, 3, 1, 1, 255] v rest := by
  have hd : (declared mandatoryFile.decls).Nodup := by decide
  have hA : Declares mandatoryFile ⟨c! "A", false, .struct [.mk (c! "A") (.ident (c! "bool")) none]⟩ := ⟨_, by simp [mandatoryFile], List.mem_singleton.2 rfl⟩
  have hB : Declares mandatoryFile ⟨c! "B", false, .struct [.mk (c! "A") (.ident (c! "bool")) none, .mk (c! "B") (.array (.ident (c! "byte"))) none]⟩ :=
    ⟨_, by simp [mandatoryFile], List.mem_singleton.2 rfl⟩
  have hdot : ∀ sp, Declares mandatoryFile sp → '.' ∉ sp.name := by
    rintro sp ⟨specs, h1, h2⟩
    simp only [mandatoryFile, List.mem_cons, GoDecl.type.injEq, List.not_mem_nil, or_false] at h1
    rcases h1 with rfl | rfl <;> rw [List.mem_singleton.1 h2] <;> decide
  have hbool : Underlies mandatoryFile (.ident (c! "bool")) [] .bool := .bool (by decide)
  refine ⟨rfl, ⟨_, .element _ _ _ _ _ 16 true 16 [1, 1, 255] [] _ (.defined _ _ _ _ hA (.struct _) trivial) rfl (by decide) (.struct _ _ _ _ [] _
    (.cons _ _ _ _ _ [] _ _ _ (by decide) (.element _ _ _ _ _ 1 false 1 [255] _ _ hbool rfl (by decide) (.simple _ _ _ _ _ (.bool _ _ true (by decide)))) (.nil _)))⟩,
    fun v rest h => ?_⟩
  obtain ⟨h1, -⟩ := reads_element hd hdot (k := .struct _) (tag := 16) (cp := true) (t := 16) (c := [1, 1, 255]) (rest0 := [])
    (.defined _ _ _ _ hB (.struct _) trivial) rfl (by decide) h
  cases h1 with
  | simple _ _ _ _ _ h2 => cases h2
  | struct _ _ _ _ _ vs h2 =>
    cases h2 with
    | cons _ _ _ _ _ b' _ _ _ _ h3 h4 =>
      obtain ⟨-, rfl⟩ := reads_element hd hdot (tag := 1) (cp := false) (t := 1) (c := [255]) (rest0 := []) hbool rfl (by decide) h3
      cases h4 with
      | cons _ _ _ _ _ _ _ _ _ _ h5 _ =>
        exact reads_fails hd hdot (.bytes (by decide)) rfl (by decide) h5

end Asn1go.Props
