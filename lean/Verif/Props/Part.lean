import Verif.Props.Added
import Verif.Props.IntWire

/-! What is read depends on the declarations used only: C98. -/

namespace Asn1go.Props

open Spec CG Enco Deco

/-! ### C98: order of assignments, added assignments, and octets -/

section

variable {u : Casing} {f f' : GoFile}

/-- The second file has the type declarations of the first. -/
structure More (f f' : GoFile) : Prop where
  decl : ∀ s, Declares f s → Declares f' s
  pre : ∀ n ∈ predeclared, n ∉ declared f'.decls

theorem under_more (hf : More f f') {e : GoExpr} {n : Str} {k : GoKind} (h : Underlies f e n k) : Underlies f' e n k := by
  induction h with
  | bool => exact .bool (hf.pre _ (by decide))
  | int64 => exact .int64 (hf.pre _ (by decide))
  | float64 => exact .float64 (hf.pre _ (by decide))
  | string => exact .string (hf.pre _ (by decide))
  | bytes => exact .bytes (hf.pre _ (by decide))
  | big => exact .big
  | bits => exact .bits
  | enumerated => exact .enumerated
  | oid => exact .oid
  | time => exact .time
  | raw => exact .raw
  | iface => exact .iface
  | slice e he => exact .slice e he
  | struct fs => exact .struct fs
  | «alias» x m e k hd _ ih => exact .alias _ _ _ _ (hf.decl _ hd) ih
  | defined x m e k hd _ hp ih => exact .defined _ _ _ _ (hf.decl _ hd) ih hp

mutual

theorem zero_more (hf : More f f') {n : Str} {k : GoKind} {z : GoVal} : Zero f n k z → Zero f' n k z
  | .bool _ => .bool _
  | .int _ => .int _
  | .string _ => .string _
  | .bytes _ => .bytes _
  | .big _ => .big _
  | .bits _ => .bits _
  | .enum _ => .enum _
  | .oid _ => .oid _
  | .time _ => .time _
  | .raw _ => .raw _
  | .iface _ => .iface _
  | .slice _ e => .slice _ e
  | .struct _ fs vs h => .struct _ fs vs (zeros_more hf h)

theorem zeros_more (hf : More f f') {fs : List GoField} {vs : List GoFieldVal} : ZeroFields f fs vs → ZeroFields f' fs vs
  | .nil => .nil
  | .cons _ _ _ _ _ _ _ _ h1 h2 h3 => .cons _ _ _ _ _ _ _ _ (under_more hf h1) (zero_more hf h2) (zeros_more hf h3)

end

mutual

theorem decodes_more (hf : More f f') {e : GoExpr} {p : FieldParams} {b : Bytes} {v : GoVal} {rest : Bytes} : Decodes f u e p b v rest → Decodes f' u e p b v rest
  | .missing _ _ _ _ _ _ h1 h2 h3 h4 => .missing _ _ _ _ _ _ (under_more hf h1) h2 h3 (zero_more hf h4)
  | .raw _ _ _ _ _ _ _ h1 h2 => .raw _ _ _ _ _ _ _ (under_more hf h1) h2
  | .iface _ _ _ _ _ _ _ h1 h2 h3 h4 => .iface _ _ _ _ _ _ _ (under_more hf h1) h2 h3 h4
  | .element _ _ _ _ _ _ _ _ _ _ _ h1 h2 h3 h4 => .element _ _ _ _ _ _ _ _ _ _ _ (under_more hf h1) h2 h3 (body_more hf h4)

theorem body_more (hf : More f f') {n : Str} {k : GoKind} {t : Nat} {c : Bytes} {v : GoVal} : ReadsBody f u n k t c v → ReadsBody f' u n k t c v
  | .simple _ _ _ _ _ h1 => .simple _ _ _ _ _ h1
  | .struct _ _ _ _ _ _ h1 => .struct _ _ _ _ _ _ (fields_more hf h1)
  | .slice _ _ _ _ _ _ _ h1 h2 h3 => .slice _ _ _ _ _ _ _ (under_more hf h1) h2 (elems_more hf h3)

theorem fields_more (hf : More f f') {fs : List GoField} {b : Bytes} {vs : List GoFieldVal} {rest : Bytes} : ReadsFields f u fs b vs rest → ReadsFields f' u fs b vs rest
  | .nil _ => .nil _
  | .cons _ _ _ _ _ _ _ _ _ h1 h2 h3 => .cons _ _ _ _ _ _ _ _ _ h1 (decodes_more hf h2) (fields_more hf h3)

theorem elems_more (hf : More f f') {e : GoExpr} {b : Bytes} {vs : List GoVal} : ReadsElems f u e b vs → ReadsElems f' u e b vs
  | .nil _ => .nil _
  | .cons _ _ _ _ _ h1 h2 h3 => .cons _ _ _ _ _ h1 (decodes_more hf h2) (elems_more hf h3)

end

/-! ### The other way -/

/-- The identifiers are predeclared, from packages, or declared as types in the file. -/
def Known (f : GoFile) (l : List Str) : Prop := ∀ x ∈ l, x ∈ predeclared ∨ '.' ∈ x ∨ ∃ a e, Declares f ⟨x, a, e⟩

/-- The second file has the type declarations of the first, which are complete. -/
structure Part (f f' : GoFile) : Prop extends More f f' where
  own : ∀ n ∈ predeclared, n ∉ declared f.decls
  once : (declared f'.decls).Nodup
  dots : ∀ s, Declares f' s → '.' ∉ s.name
  closed : ∀ s, Declares f s → Known f (exprIdents s.type)

/-- The types a kind is made of are known. -/
def KindKnown (f : GoFile) : GoKind → Prop
  | .slice e => Known f (exprIdents e)
  | .struct fs => Known f (fieldIdents fs)
  | _ => True

theorem Part.back (hf : Part f f') {x : Str} {a : Bool} {e : GoExpr} (hk : Known f [x]) (h : Declares f' ⟨x, a, e⟩) : Declares f ⟨x, a, e⟩ := by
  rcases hk x (List.mem_singleton.2 rfl) with h1 | h1 | ⟨a', e', h1⟩
  · exact absurd (declares_mem h) (hf.pre _ h1)
  · exact absurd h1 (hf.dots _ h)
  · have := declares_eq hf.once h (hf.decl _ h1) rfl
    rw [this]
    exact h1

theorem under_less (hf : Part f f') {e : GoExpr} {n : Str} {k : GoKind} (h : Underlies f' e n k) (hk : Known f (exprIdents e)) : Underlies f e n k ∧ KindKnown f k := by
  induction h with
  | bool => exact ⟨.bool (hf.own _ (by decide)), trivial⟩
  | int64 => exact ⟨.int64 (hf.own _ (by decide)), trivial⟩
  | float64 => exact ⟨.float64 (hf.own _ (by decide)), trivial⟩
  | string => exact ⟨.string (hf.own _ (by decide)), trivial⟩
  | bytes => exact ⟨.bytes (hf.own _ (by decide)), trivial⟩
  | big => exact ⟨.big, trivial⟩
  | bits => exact ⟨.bits, trivial⟩
  | enumerated => exact ⟨.enumerated, trivial⟩
  | oid => exact ⟨.oid, trivial⟩
  | time => exact ⟨.time, trivial⟩
  | raw => exact ⟨.raw, trivial⟩
  | iface => exact ⟨.iface, trivial⟩
  | slice e he => exact ⟨.slice e he, hk⟩
  | struct fs => exact ⟨.struct fs, hk⟩
  | «alias» x m e k hd _ ih =>
    have h1 := hf.back hk hd
    obtain ⟨h2, h3⟩ := ih (hf.closed _ h1)
    exact ⟨.alias _ _ _ _ h1 h2, h3⟩
  | defined x m e k hd _ hp ih =>
    have h1 := hf.back hk hd
    obtain ⟨h2, h3⟩ := ih (hf.closed _ h1)
    exact ⟨.defined _ _ _ _ h1 h2 hp, h3⟩

theorem known_cons {n : Str} {e : GoExpr} {tag : Option Str} {fs : List GoField} (h : Known f (fieldIdents (.mk n e tag :: fs))) :
    Known f (exprIdents e) ∧ Known f (fieldIdents fs) := by
  unfold Known at h ⊢
  simp only [fieldIdents, List.mem_append] at h
  exact ⟨fun x hx => h x (.inl hx), fun x hx => h x (.inr hx)⟩

mutual

theorem zero_less (hf : Part f f') {n : Str} {k : GoKind} {z : GoVal} : Zero f' n k z → KindKnown f k → Zero f n k z
  | .bool _, _ => .bool _
  | .int _, _ => .int _
  | .string _, _ => .string _
  | .bytes _, _ => .bytes _
  | .big _, _ => .big _
  | .bits _, _ => .bits _
  | .enum _, _ => .enum _
  | .oid _, _ => .oid _
  | .time _, _ => .time _
  | .raw _, _ => .raw _
  | .iface _, _ => .iface _
  | .slice _ e, _ => .slice _ e
  | .struct _ fs vs h, hk => .struct _ fs vs (zeros_less hf h hk)

theorem zeros_less (hf : Part f f') {fs : List GoField} {vs : List GoFieldVal} : ZeroFields f' fs vs → Known f (fieldIdents fs) → ZeroFields f fs vs
  | .nil, _ => .nil
  | .cons _ _ _ _ _ _ _ _ h1 h2 h3, hk => by
    obtain ⟨k1, k2⟩ := known_cons hk
    obtain ⟨h4, h5⟩ := under_less hf h1 k1
    exact .cons _ _ _ _ _ _ _ _ h4 (zero_less hf h2 h5) (zeros_less hf h3 k2)

end

mutual

theorem decodes_less (hf : Part f f') {e : GoExpr} {p : FieldParams} {b : Bytes} {v : GoVal} {rest : Bytes} : Decodes f' u e p b v rest → Known f (exprIdents e) →
    Decodes f u e p b v rest
  | .missing _ _ _ _ _ _ h1 h2 h3 h4, hk => by
    obtain ⟨h5, h6⟩ := under_less hf h1 hk
    exact .missing _ _ _ _ _ _ h5 h2 h3 (zero_less hf h4 h6)
  | .raw _ _ _ _ _ _ _ h1 h2, hk => .raw _ _ _ _ _ _ _ (under_less hf h1 hk).1 h2
  | .iface _ _ _ _ _ _ _ h1 h2 h3 h4, hk => .iface _ _ _ _ _ _ _ (under_less hf h1 hk).1 h2 h3 h4
  | .element _ _ _ _ _ _ _ _ _ _ _ h1 h2 h3 h4, hk => by
    obtain ⟨h5, h6⟩ := under_less hf h1 hk
    exact .element _ _ _ _ _ _ _ _ _ _ _ h5 h2 h3 (body_less hf h4 h6)

theorem body_less (hf : Part f f') {n : Str} {k : GoKind} {t : Nat} {c : Bytes} {v : GoVal} : ReadsBody f' u n k t c v → KindKnown f k → ReadsBody f u n k t c v
  | .simple _ _ _ _ _ h1, _ => .simple _ _ _ _ _ h1
  | .struct _ _ _ _ _ _ h1, hk => .struct _ _ _ _ _ _ (fields_less hf h1 hk)
  | .slice _ _ _ _ _ _ _ h1 h2 h3, hk => .slice _ _ _ _ _ _ _ (under_less hf h1 hk).1 h2 (elems_less hf h3 hk)

theorem fields_less (hf : Part f f') {fs : List GoField} {b : Bytes} {vs : List GoFieldVal} {rest : Bytes} : ReadsFields f' u fs b vs rest →
    Known f (fieldIdents fs) → ReadsFields f u fs b vs rest
  | .nil _, _ => .nil _
  | .cons _ _ _ _ _ _ _ _ _ h1 h2 h3, hk => .cons _ _ _ _ _ _ _ _ _ h1 (decodes_less hf h2 (known_cons hk).1) (fields_less hf h3 (known_cons hk).2)

theorem elems_less (hf : Part f f') {e : GoExpr} {b : Bytes} {vs : List GoVal} : ReadsElems f' u e b vs → Known f (exprIdents e) → ReadsElems f u e b vs
  | .nil _, _ => .nil _
  | .cons _ _ _ _ _ h1 h2 h3, hk => .cons _ _ _ _ _ h1 (decodes_less hf h2 hk) (elems_less hf h3 hk)

end

end

/-! ### The files of modules -/

theorem perm_declared {l l' : List GoDecl} (h : l.Perm l') : (declared l).Perm (declared l') := by
  induction h with
  | nil => exact .nil
  | cons d _ ih =>
    cases d with
    | type => exact ih.append_left _
    | var => exact ih.append_left _
    | imp => exact ih
  | swap a b l =>
    cases a <;> cases b <;> simp only [declared] <;> first | exact .refl _ | (rw [← List.append_assoc, ← List.append_assoc]; exact List.perm_append_comm.append_right _)
  | trans _ _ ih ih' => exact ih.trans ih'

theorem order_more {u : Casing} {fuel : Nat} {p : GenParams} {m m' : Module} (hm : Reordered m m') (hd : OneEach m.moduleBody.assignmentList) {f f' : GoFile}
    (h : generateFile u fuel p m = some (.ok f)) (h' : generateFile u fuel p m' = some (.ok f')) (hn : WellNamed u m.moduleBody.assignmentList) :
    More f f' ∧ More f' f := by
  have hperm : f.decls.Perm f'.decls := by
    rcases C85_order u fuel p m m' hm hd with ⟨h1, -⟩ | ⟨r, r', h1, h2, h3⟩
    · rw [h] at h1; cases h1
    · rw [h] at h1; cases h1
      rw [h'] at h2; cases h2
      cases h3 with
      | ok _ _ _ h3 => exact h3
  have hpre : ∀ n ∈ predeclared, n ∉ declared f.decls := by
    obtain ⟨ds, -, k2, -, -, -, k6⟩ := file_parts h
    exact fun n hp => by rw [k2]; exact predeclared_not hn k6 hp
  have hpre' : ∀ n ∈ predeclared, n ∉ declared f'.decls := fun n hp hq => hpre n hp ((perm_declared hperm).mem_iff.2 hq)
  exact ⟨⟨fun s ⟨l, h1, h2⟩ => ⟨l, hperm.mem_iff.1 h1, h2⟩, hpre'⟩, ⟨fun s ⟨l, h1, h2⟩ => ⟨l, hperm.mem_iff.2 h1, h2⟩, hpre⟩⟩

/-- C98: with the assignments in another order, the same is read from the same octets. -/
theorem C98_order (u : Casing) (fuel : Nat) (p : GenParams) (m m' : Module) (hm : Reordered m m') (hd : OneEach m.moduleBody.assignmentList) (f f' : GoFile)
    (h : generateFile u fuel p m = some (.ok f)) (h' : generateFile u fuel p m' = some (.ok f')) (hn : WellNamed u m.moduleBody.assignmentList)
    (e : GoExpr) (b : Bytes) (v : GoVal) (rest : Bytes) : Unmarshals f u e b v rest ↔ Unmarshals f' u e b v rest := by
  obtain ⟨h1, h2⟩ := order_more hm hd h h' hn
  exact ⟨decodes_more h1, decodes_more h2⟩

theorem type_known {u : Casing} {l : List MAssignment} {d : Int} {r : Str} {f : GoFile} {ds : List GoDecl} (hk : DeclsFor u l d r l ds) (hs : ds ⊆ f.decls) {n : Str} {t : MTy}
    (hm : .type n t ∈ l) : ∃ a e, Declares f ⟨goifyName u n, a, e⟩ := by
  obtain ⟨x, v, hx, -, hd, -⟩ := decls_type hk hm
  cases hd with
  | struct fs _ _ => exact ⟨_, _, _, hs hx, List.mem_singleton.2 rfl⟩
  | «alias» e _ _ _ => exact ⟨_, _, _, hs hx, List.mem_singleton.2 rfl⟩
  | set e _ _ => exact ⟨_, _, _, hs hx, List.mem_cons_of_mem _ (List.mem_singleton.2 rfl)⟩

theorem expr_known {u : Casing} {l : List MAssignment} {d : Int} {r : Str} {f : GoFile} {ds : List GoDecl} (hk : DeclsFor u l d r l ds) (hs : ds ⊆ f.decls) {t : MTy} {e : GoExpr}
    (ht : GoTypeOf u l d r t e) : Known f (exprIdents e) := by
  intro x hx
  rcases typeIdents ht x hx with h | h | ⟨a, t', h1, -, rfl, -⟩
  · exact .inl h
  · exact .inr (.inl h)
  · exact .inr (.inr (type_known hk hs (assigned_mem h1)))

theorem files_part {u : Casing} {k k' : Nat} {p : GenParams} {m m' : Module} {f f' : GoFile} (hsub : ∀ d ∈ f.decls, d ∈ f'.decls)
    (h : generateFile u k p m = some (.ok f)) (h' : generateFile u k' p m' = some (.ok f')) (hn : NamesOk u m'.moduleBody.assignmentList)
    (hv : NoValName m'.moduleBody.assignmentList) : Part f f' := by
  obtain ⟨ds, k1, k2, k3, -, -, k6⟩ := file_parts h
  obtain ⟨ds', k1', k2', k3', -, -, k6'⟩ := file_parts h'
  have hdecl : ∀ s, Declares f s → Declares f' s := fun s ⟨l, h1, h2⟩ => ⟨l, hsub _ h1, h2⟩
  have hnames : ∀ n ∈ declared f.decls, n ∈ declared f'.decls := by
    have key : ∀ l : List GoDecl, (∀ d ∈ l, d ∈ f'.decls) → ∀ n ∈ declared l, n ∈ declared f'.decls := by
      intro l
      induction l with
      | nil => intro _ n hn; cases hn
      | cons d l ih =>
        intro hl n hn
        have hr := ih (fun x hx => hl x (List.mem_cons_of_mem _ hx)) n
        cases d with
        | type specs =>
          rcases List.mem_append.1 hn with hn | hn
          · obtain ⟨s, h1, rfl⟩ := List.mem_map.1 hn
            exact declared_type h1 (hl _ (List.mem_cons_self ..))
          · exact hr hn
        | var specs =>
          rcases List.mem_append.1 hn with hn | hn
          · obtain ⟨s, h1, rfl⟩ := List.mem_map.1 hn
            exact declared_var h1 (hl _ (List.mem_cons_self ..))
          · exact hr hn
        | imp => exact hr hn
    exact key f.decls hsub
  have hpre : ∀ n ∈ predeclared, n ∉ declared f'.decls := fun n hp => by rw [k2']; exact predeclared_not hn.named k6' hp
  refine ⟨⟨hdecl, hpre⟩, fun n hp hq => hpre n hp (hnames n hq), C67_distinct_partial u k' p m' f' h' hn.named hn.noSetClash hv, ?_, ?_⟩
  · have cx := context (strict := false) (op := .none) (s := fun _ => False) h' hn (fun _ hb => hb.elim)
    exact fun sp hs => (not_declared cx (n := sp.name) hs).2
  · rintro ⟨x, a, e⟩ ⟨specs, h4, h5⟩
    have k7 := h4
    rw [k1] at k7
    replace k7 := (List.mem_append.1 k7).resolve_left (by simp)
    obtain ⟨n, t, k8, k9⟩ := decl_of k6 k7
    generalize hq : GoDecl.type specs = q at k9
    cases k9 with
    | struct fs _ k10 => cases hq; cases List.mem_singleton.1 h5; exact expr_known k6 k3 k10
    | «alias» e _ k10 => cases hq; cases List.mem_singleton.1 h5; exact expr_known k6 k3 k10
    | set e _ k10 =>
      cases hq
      rcases List.mem_cons.1 h5 with h5 | h5
      · cases h5; exact expr_known k6 k3 k10
      · cases List.mem_singleton.1 h5
        intro y hy
        cases List.mem_singleton.1 hy
        exact .inr (.inr ⟨_, _, _, h4, List.mem_cons_self ..⟩)

theorem name_known {u : Casing} {k : Nat} {p : GenParams} {m : Module} {f : GoFile} (h : generateFile u k p m = some (.ok f)) {a : Str}
    (ha : a ∈ typeNames m.moduleBody.assignmentList) : Known f (exprIdents (.ident (goifyName u a))) := by
  intro x hx
  cases List.mem_singleton.1 hx
  obtain ⟨ds, -, -, k3, -, -, k6⟩ := file_parts h
  obtain ⟨c, h1, h2⟩ := List.mem_filterMap.1 ha
  cases c with
  | type n t => cases h2; exact .inr (.inr (type_known k6 k3 h1))
  | value => cases h2
  | nil => cases h2

theorem reads_part {u : Casing} {k : Nat} {p : GenParams} {m : Module} {f f' : GoFile} (hf : Part f f') (h : generateFile u k p m = some (.ok f)) {a : Str}
    (ha : a ∈ typeNames m.moduleBody.assignmentList) (b : Bytes) (v : GoVal) (rest : Bytes) :
    Unmarshals f u (.ident (goifyName u a)) b v rest ↔ Unmarshals f' u (.ident (goifyName u a)) b v rest :=
  ⟨decodes_more hf.toMore, fun hr => decodes_less hf hr (name_known h ha)⟩

/-- C98: with more assignments, the same is read from the same octets into the types that were there. -/
theorem C98_added (u : Casing) (k k' : Nat) (p : GenParams) (m m' : Module) (hm : Enlarged m m') (f f' : GoFile) (h : generateFile u k p m = some (.ok f))
    (h' : generateFile u k' p m' = some (.ok f')) (hn : NamesOk u m'.moduleBody.assignmentList) (hv : NoValName m'.moduleBody.assignmentList)
    (a : Str) (ha : a ∈ typeNames m.moduleBody.assignmentList) (b : Bytes) (v : GoVal) (rest : Bytes) :
    Unmarshals f u (.ident (goifyName u a)) b v rest ↔ Unmarshals f' u (.ident (goifyName u a)) b v rest :=
  reads_part (files_part (C86_added u k k' p m m' f f' hm h h').2 h h' hn hv) h ha b v rest

/-- C98: and so it is if assignments are put after those of a text that has no DEFAULT (with DEFAULT it need not be: C93). -/
theorem C98_text (u : Casing) (k k' : Nat) (p : GenParams) (text text' : Str) (m m' : Module) (ht : TextAdded u.toUnicode text text' m m') (hd : NoDefaults m)
    (f f' : GoFile) (h : generateFile u k p m = some (.ok f)) (h' : generateFile u k' p m' = some (.ok f')) (hn : NamesOk u m'.moduleBody.assignmentList)
    (hv : NoValName m'.moduleBody.assignmentList) (a : Str) (ha : a ∈ typeNames m.moduleBody.assignmentList) (b : Bytes) (v : GoVal) (rest : Bytes) :
    Unmarshals f u (.ident (goifyName u a)) b v rest ↔ Unmarshals f' u (.ident (goifyName u a)) b v rest :=
  reads_part (files_part (C93_added_partial u k k' p text text' m m' f f' ht hd h h').2 h h' hn hv) h ha b v rest

/-! ### Cases -/

/-- The packet with its assignments in the other order. -/
def swappedFile : GoFile := ⟨c! "My_Mod", packetFile.decls.reverse⟩

theorem swapped_file : generateFile asciiCasing 20 int64Params (moduleOf TAGS_IMPLICIT packet.reverse) = some (.ok swappedFile) := rfl

theorem packet_oneEach : OneEach (moduleOf TAGS_IMPLICIT packet).moduleBody.assignmentList := by
  intro a ha b hb h
  simp only [moduleOf, packet, List.mem_cons, List.not_mem_nil, or_false] at ha hb
  rcases ha with rfl | rfl <;> rcases hb with rfl | rfl
  · rfl
  · exact absurd h (by decide)
  · exact absurd h (by decide)
  · rfl

/-- The packet is read with its assignments in the other order. -/
theorem C98_packet : Unmarshals swappedFile asciiCasing (.ident (c! "A")) [48, 19, 160, 3, 2, 1, 5, 22, 1, 120, 49, 6, 1, 1, 0, 1, 1, 255, 4, 1, 7] packetRead [] :=
  (C98_order asciiCasing 20 int64Params (moduleOf TAGS_IMPLICIT packet) (moduleOf TAGS_IMPLICIT packet.reverse) ⟨rfl, rfl, (List.reverse_perm packet).symm⟩
    packet_oneEach packetFile swappedFile packet_file swapped_file packet_names.named
    _ _ _ _).1 (packet_reads [])

/-- `B ::= OCTET STRING` alone -/
def aloneFile : GoFile := ⟨c! "My_Mod", [.type [⟨c! "B", true, .array (.ident (c! "byte"))⟩]]⟩

/-- What is read into `B` with and without `A`. -/
theorem C98_alone (b : Bytes) (v : GoVal) (rest : Bytes) : Unmarshals aloneFile asciiCasing (.ident (c! "B")) b v rest ↔
    Unmarshals packetFile asciiCasing (.ident (c! "B")) b v rest :=
  C98_added asciiCasing 20 20 int64Params (moduleOf TAGS_IMPLICIT [.type (c! "B") .octetString]) (moduleOf TAGS_IMPLICIT packet) ⟨rfl, by simp [moduleOf, packet],
    packet_oneEach, by
    intro a ha ht
    simp only [moduleOf, packet, List.mem_cons, List.not_mem_nil, or_false] at ha
    rcases ha with rfl | rfl <;> simp [TimeName, Assignment.name] at ht⟩ aloneFile packetFile rfl packet_file packet_names packet_valName (c! "B") (by decide) b v rest

end Asn1go.Props
