import Verif.Proofs.LR.Result
import Verif.Proofs.LR.Invert
import Verif.Spec.Shape

/-! What the header and the assignment list of a parsed module have to do with the tokens. -/

namespace Asn1go.LR

open Spec

theorem derivesList_nil {toks : List Token} {kids : List Tree} : DerivesList [] toks kids ↔ toks = [] ∧ kids = [] := by
  constructor
  · intro h; cases h; exact ⟨rfl, rfl⟩
  · rintro ⟨rfl, rfl⟩; exact .nil

theorem derivesList_cons {X : Sym} {l : List Sym} {toks : List Token} {kids : List Tree} : DerivesList (X :: l) toks kids ↔
    ∃ a b t ts, toks = a ++ b ∧ kids = t :: ts ∧ Derives X a t ∧ DerivesList l b ts := by
  constructor
  · intro h
    cases h with
    | cons _ _ a b t ts h1 h2 => exact ⟨a, b, t, ts, rfl, rfl, h1, h2⟩
  · rintro ⟨a, b, t, ts, rfl, rfl, h1, h2⟩; exact .cons _ _ _ _ _ _ h1 h2

theorem derives_t {c : Int} {toks : List Token} {t : Tree} : Derives (.t c) toks t ↔ ∃ p, toks = [(c, p)] ∧ t = .leaf c p := by
  constructor
  · intro h; cases h; exact ⟨_, rfl, rfl⟩
  · rintro ⟨p, rfl, rfl⟩; exact .leaf _ _

/-- Each token of a text is a lexeme. -/
theorem tokens_mem {u : Unicode} {adj : Bool} {text : Str} {toks : List Token} (h : Tokens u adj text toks) :
    ∀ x ∈ toks, ∃ adj sp rest, Lexeme u adj sp rest x.1 x.2 := by
  induction h with
  | nil => simp
  | cons adj t sp rest code p toks hs hx _ ih =>
    intro x hm
    rcases List.mem_cons.1 hm with rfl | hm
    · exact ⟨_, _, _, hx⟩
    · exact ih x hm

/-- Tokens other than names and numbers carry nothing. -/
theorem lexeme_plain {u : Unicode} {adj : Bool} {sp rest : Str} {code : Int} {p : Payload} (h : Lexeme u adj sp rest code p) :
    code = Tok.TYPEORMODULEREFERENCE ∨ code = Tok.VALUEIDENTIFIER ∨ code = Tok.NUMBER ∨ p = .none := by
  cases h <;> simp

/-- What the tokens of a text carry. -/
structure Sane (toks : List Token) : Prop where
  payload : ∀ x ∈ toks, PayloadOk x.1 x.2
  plain : ∀ x ∈ toks, x.1 = Tok.TYPEORMODULEREFERENCE ∨ x.1 = Tok.VALUEIDENTIFIER ∨ x.1 = Tok.NUMBER ∨ x.2 = .none

theorem tokens_sane {u : Unicode} {adj : Bool} {text : Str} {toks : List Token} (h : Tokens u adj text toks) : Sane toks := by
  refine ⟨fun x hx => ?_, fun x hx => ?_⟩
  · obtain ⟨_, _, _, h⟩ := tokens_mem h x hx; exact lexeme_payload h
  · obtain ⟨_, _, _, h⟩ := tokens_mem h x hx; exact lexeme_plain h

theorem Sane.left {a b : List Token} (h : Sane (a ++ b)) : Sane a :=
  ⟨fun x hx => h.payload x (List.mem_append_left _ hx), fun x hx => h.plain x (List.mem_append_left _ hx)⟩

theorem Sane.right {a b : List Token} (h : Sane (a ++ b)) : Sane b :=
  ⟨fun x hx => h.payload x (List.mem_append_right _ hx), fun x hx => h.plain x (List.mem_append_right _ hx)⟩

theorem Sane.none {c : Int} {p : Payload} (h : Sane [(c, p)])
    (hc : c ≠ Tok.TYPEORMODULEREFERENCE ∧ c ≠ Tok.VALUEIDENTIFIER ∧ c ≠ Tok.NUMBER) : p = .none := by
  rcases h.plain (c, p) (by simp) with h | h | h | h
  · exact absurd h hc.1
  · exact absurd h hc.2.1
  · exact absurd h hc.2.2
  · exact h

theorem Sane.name {c : Int} {p : Payload} (h : Sane [(c, p)]) (hc : c = Tok.TYPEORMODULEREFERENCE ∨ c = Tok.VALUEIDENTIFIER) :
    ∃ w, p = .name w := (h.payload (c, p) (by simp)).1 hc

theorem Sane.number {p : Payload} (h : Sane [(Tok.NUMBER, p)]) : ∃ w n, p = .number w n :=
  (h.payload (Tok.NUMBER, p) (by simp)).2 rfl

/-- The tokens of one keyword or symbol. -/
theorem derives_plain {c : Int} {toks : List Token} {t : Tree} (h : Derives (.t c) toks t) (hs : Sane toks)
    (hc : c ≠ Tok.TYPEORMODULEREFERENCE ∧ c ≠ Tok.VALUEIDENTIFIER ∧ c ≠ Tok.NUMBER) : toks = [(c, .none)] := by
  obtain ⟨p, rfl, rfl⟩ := derives_t.1 h
  rw [hs.none hc]

variable {R D : Type} {mk : (Nat → SymType R D) → Pointers R D}

theorem text_tagDefault {toks : List Token} {t : Tree} (hd : Derives (.n NT.TagDefault) toks t) (hs : Sane toks) :
    TagDefaultText toks (t.eval mk).tagDefault := by
  rcases inv_TagDefault hd with ⟨kids, rfl, h⟩ | ⟨kids, rfl, h⟩ | ⟨kids, rfl, h⟩ | ⟨kids, rfl, h⟩ <;> rw [eval_node]
  case inr.inr.inr =>
    obtain ⟨rfl, rfl⟩ := derivesList_nil.1 h
    exact .absent
  all_goals
    simp only [derivesList_cons, derivesList_nil] at h
    obtain ⟨a, _, t1, _, rfl, rfl, h1, b, _, t2, _, rfl, rfl, h2, rfl, rfl⟩ := h
    rw [derives_plain h1 hs.left (by decide), derives_plain h2 hs.right.left (by decide)]
  · exact .explicit
  · exact .implicit
  · exact .automatic

theorem text_extension {toks : List Token} {t : Tree} (hd : Derives (.n NT.ExtensionDefault) toks t) (hs : Sane toks) :
    ExtensionText toks (t.eval mk).extensionDefault := by
  rcases inv_ExtensionDefault hd with ⟨kids, rfl, h⟩ | ⟨kids, rfl, h⟩ <;> rw [eval_node]
  · simp only [derivesList_cons, derivesList_nil] at h
    obtain ⟨a, _, t1, _, rfl, rfl, h1, b, _, t2, _, rfl, rfl, h2, rfl, rfl⟩ := h
    rw [derives_plain h1 hs.left (by decide), derives_plain h2 hs.right.left (by decide)]
    exact .implied
  · obtain ⟨rfl, rfl⟩ := derivesList_nil.1 h
    exact .absent

theorem text_name {kids : List Tree} {c : Int} {toks : List Token} (h : DerivesList [.t c] toks kids) (hs : Sane toks)
    (hc : c = Tok.TYPEORMODULEREFERENCE ∨ c = Tok.VALUEIDENTIFIER) :
    ∃ w, toks = [(c, .name w)] ∧ kids.map (Tree.eval mk) = [leafValue (.name w)] := by
  simp only [derivesList_cons, derivesList_nil] at h
  obtain ⟨a, _, t1, _, rfl, rfl, h1, rfl, rfl⟩ := h
  obtain ⟨p, rfl, rfl⟩ := derives_t.1 h1
  obtain ⟨w, rfl⟩ := hs.left.name hc
  exact ⟨w, rfl, by rw [List.map_cons, Tree.eval]; rfl⟩

theorem text_modulereference {toks : List Token} {t : Tree} (hd : Derives (.n NT.modulereference) toks t) (hs : Sane toks) :
    ∃ w, toks = [(Tok.TYPEORMODULEREFERENCE, .name w)] ∧ (t.eval mk).name = w := by
  obtain ⟨kids, rfl, h⟩ := inv_modulereference hd
  obtain ⟨w, h1, h2⟩ := text_name (mk := mk) h hs (by decide)
  exact ⟨w, h1, by rw [eval_node, h2]; rfl⟩

theorem text_typereference {toks : List Token} {t : Tree} (hd : Derives (.n NT.typereference) toks t) (hs : Sane toks) :
    ∃ w, toks = [(Tok.TYPEORMODULEREFERENCE, .name w)] ∧ (t.eval mk).typeReference = w := by
  obtain ⟨kids, rfl, h⟩ := inv_typereference hd
  obtain ⟨w, h1, h2⟩ := text_name (mk := mk) h hs (by decide)
  exact ⟨w, h1, by rw [eval_node, h2]; rfl⟩

theorem text_valuereference {toks : List Token} {t : Tree} (hd : Derives (.n NT.valuereference) toks t) (hs : Sane toks) :
    ∃ w, toks = [(Tok.VALUEIDENTIFIER, .name w)] ∧ (t.eval mk).valueReference = w := by
  obtain ⟨kids, rfl, h⟩ := inv_valuereference hd
  obtain ⟨w, h1, h2⟩ := text_name (mk := mk) h hs (by decide)
  exact ⟨w, h1, by rw [eval_node, h2]; rfl⟩

theorem text_identifier {toks : List Token} {t : Tree} (hd : Derives (.n NT.identifier) toks t) (hs : Sane toks) :
    ∃ w, toks = [(Tok.VALUEIDENTIFIER, .name w)] ∧ (t.eval mk).name = w := by
  obtain ⟨kids, rfl, h⟩ := inv_identifier hd
  obtain ⟨w, h1, h2⟩ := text_name (mk := mk) h hs (by decide)
  exact ⟨w, h1, by rw [eval_node, h2]; rfl⟩

theorem text_definitiveNumber {toks : List Token} {t : Tree} (hd : Derives (.n NT.DefinitiveNumberForm) toks t) (hs : Sane toks) :
    ∃ w n, toks = [(Tok.NUMBER, .number w n)] ∧ (t.eval mk).number = (n : Int) := by
  obtain ⟨kids, rfl, h⟩ := inv_DefinitiveNumberForm hd
  simp only [derivesList_cons, derivesList_nil] at h
  obtain ⟨a, _, t1, _, rfl, rfl, h1, rfl, rfl⟩ := h
  obtain ⟨p, rfl, rfl⟩ := derives_t.1 h1
  obtain ⟨w, n, rfl⟩ := hs.left.number
  exact ⟨w, n, rfl, by rw [eval_node, List.map_cons, Tree.eval]; rfl⟩

theorem text_idComponent {toks : List Token} {t : Tree} (hd : Derives (.n NT.DefinitiveObjIdComponent) toks t) (hs : Sane toks) :
    IdComponentText toks (t.eval mk).definitiveObjIdComponent := by
  rcases inv_DefinitiveObjIdComponent hd with ⟨kids, rfl, h⟩ | ⟨kids, rfl, h⟩ | ⟨kids, rfl, h⟩
  · simp only [derivesList_cons, derivesList_nil] at h
    obtain ⟨a, _, t1, _, rfl, rfl, h0, rfl, rfl⟩ := h
    obtain ⟨kids, rfl, h⟩ := inv_NameForm h0
    simp only [derivesList_cons, derivesList_nil] at h
    obtain ⟨a, _, t1, _, rfl, rfl, h1, rfl, rfl⟩ := h
    obtain ⟨w, rfl, hw⟩ := text_identifier (mk := mk) h1 hs.left.left
    have : ((Tree.node 12 [.node 198 [t1]]).eval mk).definitiveObjIdComponent = ⟨w, 0⟩ := by
      rw [← hw, eval_node, List.map_cons, eval_node]; rfl
    rw [this]
    exact .name w
  · simp only [derivesList_cons, derivesList_nil] at h
    obtain ⟨a, _, t1, _, rfl, rfl, h1, rfl, rfl⟩ := h
    obtain ⟨w, n, rfl, hw⟩ := text_definitiveNumber (mk := mk) h1 hs.left
    have : ((Tree.node 13 [t1]).eval mk).definitiveObjIdComponent = ⟨[], n⟩ := by
      rw [← hw, eval_node, List.map_cons]; rfl
    rw [this]
    exact .number w n
  · simp only [derivesList_cons, derivesList_nil] at h
    obtain ⟨a, _, t1, _, rfl, rfl, h0, rfl, rfl⟩ := h
    obtain ⟨kids, rfl, h⟩ := inv_DefinitiveNameAndNumberForm h0
    simp only [derivesList_cons, derivesList_nil] at h
    obtain ⟨a, _, t1, _, rfl, rfl, h1, b, _, t2, _, rfl, rfl, h2, c, _, t3, _, rfl, rfl, h3, d, _, t4, _, rfl, rfl, h4, rfl, rfl⟩ := h
    have hs := hs.left
    obtain ⟨w, rfl, hw⟩ := text_identifier (mk := mk) h1 hs.left
    obtain ⟨r, n, rfl, hn⟩ := text_definitiveNumber (mk := mk) h3 hs.right.right.left
    rw [derives_plain h2 hs.right.left (by decide), derives_plain h4 hs.right.right.right.left (by decide)]
    have : ((Tree.node 14 [.node 16 [t1, t2, t3, t4]]).eval mk).definitiveObjIdComponent = ⟨w, n⟩ := by
      rw [← hw, ← hn, eval_node, List.map_cons, eval_node]; rfl
    rw [this]
    exact .both w r n

theorem text_idList : ∀ (t : Tree) {toks : List Token}, Derives (.n NT.DefinitiveObjIdComponentList) toks t → Sane toks →
    ∃ segs, segs ≠ [] ∧ toks = segs.flatten ∧ List.Forall₂ IdComponentText segs (t.eval mk).definitiveObjIdComponentList
  | .leaf _ _, _, hd, _ => by cases hd
  | .node r kids, toks, hd, hs => by
    rcases inv_DefinitiveObjIdComponentList hd with ⟨kids', he, h⟩ | ⟨kids', he, h⟩
    · obtain ⟨rfl, rfl⟩ := Tree.node.inj he
      simp only [derivesList_cons, derivesList_nil] at h
      obtain ⟨a, _, t1, _, rfl, rfl, h1, rfl, rfl⟩ := h
      refine ⟨[a], by simp, by simp, ?_⟩
      rw [eval_node]
      exact .cons (text_idComponent h1 hs.left) .nil
    · obtain ⟨rfl, rfl⟩ := Tree.node.inj he
      simp only [derivesList_cons, derivesList_nil] at h
      obtain ⟨a, _, t1, _, rfl, rfl, h1, b, _, t2, _, rfl, rfl, h2, rfl, rfl⟩ := h
      obtain ⟨segs, _, he, hf⟩ := text_idList t2 h2 hs.right.left
      refine ⟨a :: segs, by simp, by simp [he], ?_⟩
      rw [eval_node]
      exact .cons (text_idComponent h1 hs.left) hf

theorem text_moduleIdentifier {toks : List Token} {t : Tree} (hd : Derives (.n NT.ModuleIdentifier) toks t) (hs : Sane toks) :
    ∃ idt, toks = (Tok.TYPEORMODULEREFERENCE, .name (t.eval mk).moduleIdentifier.reference) :: idt ∧
      IdentifierText idt (t.eval mk).moduleIdentifier.definitiveIdentifier := by
  obtain ⟨kids, rfl, h⟩ := inv_ModuleIdentifier hd
  simp only [derivesList_cons, derivesList_nil] at h
  obtain ⟨a, _, t1, _, rfl, rfl, h1, b, _, t2, _, rfl, rfl, h2, rfl, rfl⟩ := h
  obtain ⟨w, rfl, hw⟩ := text_modulereference (mk := mk) h1 hs.left
  refine ⟨b, ?_, ?_⟩
  · rw [eval_node, ← hw]; simp; rfl
  · have : ((Tree.node 7 [t1, t2]).eval mk).moduleIdentifier.definitiveIdentifier = (t2.eval mk).definitiveIdentifier := by
      rw [eval_node]; rfl
    rw [this]
    have h0 := h2
    clear h2 this
    rcases inv_DefinitiveIdentifier h0 with ⟨kids, rfl, h⟩ | ⟨kids, rfl, h⟩ <;> rw [eval_node]
    · simp only [derivesList_cons, derivesList_nil] at h
      obtain ⟨a, _, t1, _, rfl, rfl, h1, b, _, t2, _, rfl, rfl, h2, c, _, t3, _, rfl, rfl, h3, rfl, rfl⟩ := h
      have hs := hs.right.left
      obtain ⟨segs, hne, rfl, hf⟩ := text_idList (mk := mk) t2 h2 hs.right.left
      rw [derives_plain h1 hs.left (by decide), derives_plain h3 hs.right.right.left (by decide)]
      exact .present segs _ hne hf
    · obtain ⟨rfl, rfl⟩ := derivesList_nil.1 h
      exact .absent

theorem text_assignment {toks : List Token} {t : Tree} (hd : Derives (.n NT.Assignment) toks t) (hs : Sane toks) :
    AssignmentText toks (t.eval mk).assignment := by
  rcases inv_Assignment hd with ⟨kids, rfl, h⟩ | ⟨kids, rfl, h⟩
  · simp only [derivesList_cons, derivesList_nil] at h
    obtain ⟨a, _, t1, _, rfl, rfl, h0, rfl, rfl⟩ := h
    obtain ⟨kids, rfl, h⟩ := inv_TypeAssignment h0
    simp only [derivesList_cons, derivesList_nil] at h
    obtain ⟨a, _, t1, _, rfl, rfl, h1, b, _, t2, _, rfl, rfl, h2, c, _, t3, _, rfl, rfl, h3, rfl, rfl⟩ := h
    have hs := hs.left
    obtain ⟨w, rfl, hw⟩ := text_typereference (mk := mk) h1 hs.left
    rw [derives_plain h2 hs.right.left (by decide)]
    have : ∃ ty, ((Tree.node 49 [.node 54 [t1, t2, t3]]).eval mk).assignment = .type w ty := by
      rw [← hw, eval_node, List.map_cons, eval_node]; exact ⟨_, rfl⟩
    obtain ⟨ty, this⟩ := this
    rw [this]
    simpa using AssignmentText.type w c t3 ty h3
  · simp only [derivesList_cons, derivesList_nil] at h
    obtain ⟨a, _, t1, _, rfl, rfl, h0, rfl, rfl⟩ := h
    obtain ⟨kids, rfl, h⟩ := inv_ValueAssignment h0
    simp only [derivesList_cons, derivesList_nil] at h
    obtain ⟨a, _, t1, _, rfl, rfl, h1, b, _, t2, _, rfl, rfl, h2, c, _, t3, _, rfl, rfl, h3, d, _, t4, _, rfl, rfl, h4, rfl, rfl⟩ := h
    have hs := hs.left
    obtain ⟨w, rfl, hw⟩ := text_valuereference (mk := mk) h1 hs.left
    rw [derives_plain h3 hs.right.right.left (by decide)]
    have : ∃ ty v, ((Tree.node 50 [.node 55 [t1, t2, t3, t4]]).eval mk).assignment = .value w ty v := by
      rw [← hw, eval_node, List.map_cons, eval_node]; exact ⟨_, _, rfl⟩
    obtain ⟨ty, v, this⟩ := this
    rw [this]
    simpa using AssignmentText.value w b d t2 t4 ty v h2 h4

theorem forall₂_append {α β : Type} {r : α → β → Prop} : ∀ {a c : List α} {b d : List β}, List.Forall₂ r a b → List.Forall₂ r c d →
    List.Forall₂ r (a ++ c) (b ++ d)
  | _, _, _, _, .nil, h => h
  | _, _, _, _, .cons h1 h2, h => .cons h1 (forall₂_append h2 h)

theorem text_assignmentList : ∀ (t : Tree) {toks : List Token}, Derives (.n NT.AssignmentList) toks t → Sane toks →
    ∃ segs, segs ≠ [] ∧ toks = segs.flatten ∧ List.Forall₂ AssignmentText segs (t.eval mk).assignmentList
  | .leaf _ _, _, hd, _ => by cases hd
  | .node r kids, toks, hd, hs => by
    rcases inv_AssignmentList hd with ⟨kids', he, h⟩ | ⟨kids', he, h⟩
    · obtain ⟨rfl, rfl⟩ := Tree.node.inj he
      simp only [derivesList_cons, derivesList_nil] at h
      obtain ⟨a, _, t1, _, rfl, rfl, h1, rfl, rfl⟩ := h
      refine ⟨[a], by simp, by simp, ?_⟩
      rw [eval_node]
      exact .cons (text_assignment h1 hs.left) .nil
    · obtain ⟨rfl, rfl⟩ := Tree.node.inj he
      simp only [derivesList_cons, derivesList_nil] at h
      obtain ⟨a, _, t1, _, rfl, rfl, h1, b, _, t2, _, rfl, rfl, h2, rfl, rfl⟩ := h
      obtain ⟨segs, _, he, hf⟩ := text_assignmentList t1 h1 hs.left
      refine ⟨segs ++ [b], by simp, by simp [he], ?_⟩
      rw [eval_node]
      exact forall₂_append hf (.cons (text_assignment h2 hs.right.left) .nil)

theorem text_body {toks : List Token} {t : Tree} (hd : Derives (.n NT.ModuleBody) toks t) (hs : Sane toks) :
    BodyText toks (t.eval mk).moduleBody.assignmentList := by
  rcases inv_ModuleBody hd with ⟨kids, rfl, h⟩ | ⟨kids, rfl, h⟩
  · simp only [derivesList_cons, derivesList_nil] at h
    obtain ⟨a, _, t1, _, rfl, rfl, h1, b, _, t2, _, rfl, rfl, h2, c, _, t3, _, rfl, rfl, h3, rfl, rfl⟩ := h
    obtain ⟨segs, hne, rfl, hf⟩ := text_assignmentList (mk := mk) t3 h3 hs.right.right.left
    have : ((Tree.node 23 [t1, t2, t3]).eval mk).moduleBody.assignmentList = (t3.eval mk).assignmentList := by
      rw [eval_node]; rfl
    rw [this]
    simpa using BodyText.assignments a b t1 t2 segs _ hne h1 h2 hf
  · obtain ⟨rfl, rfl⟩ := derivesList_nil.1 h
    rw [eval_node]
    exact .empty

theorem text_module {toks : List Token} {t : Tree} (hd : Derives (.n NT.ModuleDefinition) toks t) (hs : Sane toks) :
    ModuleText toks (t.module mk) := by
  obtain ⟨kids, rfl, h⟩ := inv_ModuleDefinition hd
  simp only [derivesList_cons, derivesList_nil] at h
  obtain ⟨a1, _, t1, _, rfl, rfl, h1, a2, _, t2, _, rfl, rfl, h2, a3, _, t3, _, rfl, rfl, h3, a4, _, t4, _, rfl, rfl, h4, a5, _, t5, _, rfl, rfl, h5, a6, _, t6, _, rfl, rfl, h6, a7, _, t7, _, rfl, rfl, h7, a8, _, t8, _, rfl, rfl, h8, rfl, rfl⟩ := h
  obtain ⟨idt, he, hid⟩ := text_moduleIdentifier (mk := mk) h1 hs.left
  have h2 := derives_plain h2 hs.right.left (by decide)
  have h3 := text_tagDefault (mk := mk) h3 hs.right.right.left
  have h4 := text_extension (mk := mk) h4 hs.right.right.right.left
  have h5 := derives_plain h5 hs.right.right.right.right.left (by decide)
  have h6 := derives_plain h6 hs.right.right.right.right.right.left (by decide)
  have h7 := text_body (mk := mk) h7 hs.right.right.right.right.right.right.left
  have h8 := derives_plain h8 hs.right.right.right.right.right.right.right.left (by decide)
  rw [Tree.module, evalList_eq]
  have := ModuleText.mk idt a3 a4 a7 (moduleOf (dollars ([t1, t2, t3, t4, t5, t6, t7, t8].map (Tree.eval mk)))) hid h3 h4 h7
  subst h2 h5 h6 h8
  rw [he]
  have e : (moduleOf (dollars ([t1, t2, t3, t4, t5, t6, t7, t8].map (Tree.eval mk)))).moduleIdentifier.reference =
    (t1.eval mk).moduleIdentifier.reference := rfl
  rw [e] at this
  simpa using this

theorem AssignmentText.congr {R D R' D' : Type} {toks : List Token} {a : Assignment R D} {b : Assignment R' D'} {R0 D0 : Type} {f : R → R0} {g : D → D0} {f' : R' → R0}
    {g' : D' → D0} (h : AssignmentText toks a) (he : a.map f g = b.map f' g') : AssignmentText toks b := by
  cases h with
  | type n body t ty hd =>
    cases b with
    | type n' ty' => cases (Assignment.type.inj he).1; exact .type _ _ _ _ hd
    | _ => simp [Assignment.map] at he
  | value n x y t v ty val h1 h2 =>
    cases b with
    | value n' ty' v' => cases (Assignment.value.inj he).1; exact .value _ _ _ _ _ _ _ h1 h2
    | _ => simp [Assignment.map] at he

theorem forall₂_assignment {R D R' D' : Type} {R0 D0 : Type} {f : R → R0} {g : D → D0} {f' : R' → R0} {g' : D' → D0} :
    ∀ {segs : List (List Token)} {l : List (Assignment R D)} {l' : List (Assignment R' D')}, List.Forall₂ AssignmentText segs l →
      l.map (Assignment.map f g) = l'.map (Assignment.map f' g') → List.Forall₂ AssignmentText segs l'
  | _, _, l', .nil, h => by
    cases l' with
    | nil => exact .nil
    | cons => simp at h
  | _, _, l', .cons h1 h2, h => by
    cases l' with
    | nil => simp at h
    | cons b l' =>
      simp only [List.map_cons, List.cons.injEq] at h
      exact .cons (AssignmentText.congr h1 h.1) (forall₂_assignment h2 h.2)

theorem ModuleText.congr {R D R' D' : Type} {toks : List Token} {a : ModuleDefinition R D} {b : ModuleDefinition R' D'} {R0 D0 : Type} {f : R → R0} {g : D → D0}
    {f' : R' → R0} {g' : D' → D0} (h : ModuleText toks a) (he : a.map f g = b.map f' g') : ModuleText toks b := by
  obtain ⟨ai, at_, ae, ab⟩ := a
  obtain ⟨bi, bt, be, bb⟩ := b
  simp only [ModuleDefinition.map, ModuleDefinition.mk.injEq] at he
  obtain ⟨rfl, rfl, rfl, he⟩ := he
  obtain ⟨al, aim⟩ := ab
  obtain ⟨bl, bim⟩ := bb
  simp only [ModuleBody.map, ModuleBody.mk.injEq] at he
  have h' := h
  generalize hm : (⟨ai, at_, ae, ⟨al, aim⟩⟩ : ModuleDefinition R D) = m at h'
  cases h' with
  | mk idt td ed body _ h1 h2 h3 h4 =>
    subst hm
    refine .mk idt td ed body ⟨ai, at_, ae, ⟨bl, bim⟩⟩ h1 h2 h3 ?_
    simp only at h4
    cases h4 with
    | empty =>
      have : bl = [] := by
        cases bl with
        | nil => rfl
        | cons => simp at he
      simp only [this]
      exact .empty
    | assignments ex im te ti segs l hne h5 h6 h7 => exact .assignments ex im te ti segs _ hne h5 h6 (forall₂_assignment h7 he.1)

theorem Parsed.shape {u : Unicode} {text : Str} {m : Module} {toks : List Token} {t : Tree} (h : Parsed u text m toks t) :
    ModuleText toks m := by
  obtain ⟨m0, rfl, he⟩ := h.value
  have h1 : ModuleText toks t.marked := text_module h.derives (tokens_sane h.tokens)
  have h2 : ModuleText toks m0 := ModuleText.congr h1 he.symm
  refine ModuleText.congr (f := Ref.target) (g := id) (f' := id) (g' := id) h2 ?_
  rw [ModuleDefinition.map_map]; rfl

end Asn1go.LR
