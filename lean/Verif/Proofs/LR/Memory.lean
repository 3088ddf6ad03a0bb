import Verif.Spec.Exact
import Verif.Proofs.LR.Stack
import Verif.Proofs.LR.Keep

/-! The parser's memory against `Spec.Memory`. -/

namespace Asn1go.LR

open Asn1go Spec

theorem doublings_lt (k : Nat) : k < 16 * 2 ^ doublings k := by
  unfold doublings
  have h := @Nat.lt_log2_self (k / 8)
  rw [Nat.pow_succ] at h
  generalize 2 ^ (k / 8).log2 = x at *
  omega

theorem doublings_le {k g : Nat} (h : k < 16 * 2 ^ g) : doublings k ≤ g := by
  unfold doublings
  by_cases h0 : k / 8 = 0
  · rw [h0]; exact Nat.zero_le g
  · have : (k / 8).log2 < g + 1 := by
      rw [Nat.log2_lt h0, Nat.pow_succ]
      generalize 2 ^ g = x at *
      omega
    omega

theorem doublings_mono {k k' : Nat} (h : k ≤ k') : doublings k ≤ doublings k' :=
  doublings_le (Nat.lt_of_le_of_lt h (doublings_lt k'))

theorem doublings_stay {k i : Nat} (h : i < 16 * 2 ^ doublings k) : doublings (max k i) = doublings k :=
  Nat.le_antisymm (doublings_le (by have := doublings_lt k; omega)) (doublings_mono (by omega))

theorem doublings_next {k i : Nat} (h : i = 16 * 2 ^ doublings k) : doublings (max k i) = doublings k + 1 := by
  have h1 := doublings_lt k
  refine Nat.le_antisymm (doublings_le ?_) ?_
  · rw [Nat.pow_succ]; omega
  · refine Decidable.byContradiction fun hc => ?_
    have h2 := doublings_lt (max k i)
    have h3 : doublings (max k i) ≤ doublings k := by omega
    have h4 : (2 : Nat) ^ doublings (max k i) ≤ 2 ^ doublings k := Nat.pow_le_pow_right (by omega) h3
    have : i ≤ max k i := by omega
    omega

/-- The parser's arrays hold what `m` says. -/
structure MemOk (s : PState) (m : Memory) : Prop where
  old : s.old.length = doublings m.top
  cur : s.cur.length = 16 * 2 ^ doublings m.top
  bound : ∀ w ∈ m.writes, w.idx ≤ m.top
  reached : m.top = 0 ∨ ∃ w ∈ m.writes, w.idx = m.top
  value : ∀ p, (s.load p).value = m.value p
  defined : ∀ p, (s.load p).definedValue = m.defined p

theorem takeWhile_append_all {α : Type} {p : α → Bool} {l : List α} (h : ∀ x ∈ l, p x = true) (l' : List α) :
    (l ++ l').takeWhile p = l ++ l'.takeWhile p := List.takeWhile_append_of_pos h

theorem takeWhile_all {α : Type} {p : α → Bool} {l : List α} (h : ∀ x ∈ l, p x = true) : l.takeWhile p = l := by
  have := takeWhile_append_all h []
  simpa using this

theorem takeWhile_append_stop {α : Type} {p : α → Bool} {l : List α} (h : ∃ x ∈ l, p x = false) (l' : List α) :
    (l ++ l').takeWhile p = l.takeWhile p := by
  induction l with
  | nil => obtain ⟨x, h, _⟩ := h; cases h
  | cons a l ih =>
    rw [List.cons_append, List.takeWhile_cons, List.takeWhile_cons]
    split
    · rename_i ha
      rw [ih]
      obtain ⟨x, hx, hp⟩ := h
      rcases List.mem_cons.1 hx with rfl | hx
      · rw [ha] at hp; cases hp
      · exact ⟨x, hx, hp⟩
    · rfl

/-- A list of arrays, read. -/
theorem load_cur {s : PState} {g i : Nat} (h : g = s.old.length) : s.load ⟨g, i⟩ = (s.cur[i]?).getD {} := by
  subst h
  simp [PState.load]

theorem load_old {s : PState} {g i : Nat} (h : g < s.old.length) : s.load ⟨g, i⟩ = (((s.old[g]?).getD [])[i]?).getD {} := by
  simp only [PState.load]
  rw [List.getElem?_append_left h]

theorem load_none {s : PState} {g i : Nat} (h : s.old.length < g) : s.load ⟨g, i⟩ = {} := by
  simp only [PState.load]
  have : (s.old ++ [s.cur])[g]? = none := List.getElem?_eq_none (by rw [List.length_append, List.length_singleton]; omega)
  rw [this]
  rfl

theorem lastValue_append (i : Nat) (l : List Write) (w : Write) :
    lastValue i (l ++ [w]) = if w.idx = i then w.value.getD (lastValue i l) else lastValue i l := by
  simp [lastValue, List.foldl_append]

theorem lastDefined_append (i : Nat) (l : List Write) (w : Write) :
    lastDefined i (l ++ [w]) = if w.idx = i then w.defined.getD (lastDefined i l) else lastDefined i l := by
  simp [lastDefined, List.foldl_append]

/-- The top entry of a memory after one more write. -/
def Memory.add (m : Memory) (w : Write) : Memory := ⟨max m.top w.idx, m.writes ++ [w]⟩

theorem MemOk.all {s : PState} {m : Memory} (h : MemOk s m) : m.upTo (doublings m.top) = m.writes := by
  unfold Memory.upTo
  refine takeWhile_all ?_
  intro w hw
  have := h.bound w hw
  have := doublings_lt m.top
  simp; omega

theorem MemOk.curValue {s : PState} {m : Memory} (h : MemOk s m) (i : Nat) :
    ((s.cur[i]?).getD {}).value = lastValue i m.writes := by
  have := h.value ⟨doublings m.top, i⟩
  rw [load_cur h.old.symm] at this
  rw [this, Memory.value, if_pos (Nat.le_refl _), h.all]

theorem MemOk.curDefined {s : PState} {m : Memory} (h : MemOk s m) (i : Nat) :
    ((s.cur[i]?).getD {}).definedValue = lastDefined i m.writes := by
  have := h.defined ⟨doublings m.top, i⟩
  rw [load_cur h.old.symm] at this
  rw [this, Memory.defined, if_pos (Nat.le_refl _), h.all]

/-- Arrays left behind do not see a new write. -/
theorem upTo_add_old {m : Memory} {w : Write} {g : Nat} (hr : m.top = 0 ∨ ∃ w ∈ m.writes, w.idx = m.top) (hg : g < doublings m.top) :
    (Memory.add m w).upTo g = m.upTo g := by
  unfold Memory.upTo Memory.add
  refine takeWhile_append_stop ?_ _
  have h2 : ¬ m.top < 16 * 2 ^ g := fun h => absurd (doublings_le h) (by omega)
  rcases hr with h0 | ⟨w', hw, hi⟩
  · rw [h0] at hg; exact absurd hg (Nat.not_lt_zero g)
  · exact ⟨w', hw, by simp; omega⟩

theorem reached_add {m : Memory} {w : Write} (hr : m.top = 0 ∨ ∃ w ∈ m.writes, w.idx = m.top) :
    (Memory.add m w).top = 0 ∨ ∃ w' ∈ (Memory.add m w).writes, w'.idx = (Memory.add m w).top := by
  right
  simp only [Memory.add, List.mem_append, List.mem_singleton]
  by_cases h : w.idx ≤ m.top
  · rw [Nat.max_eq_left h]
    rcases hr with h0 | ⟨w', hw, hi⟩
    · exact ⟨w, .inr rfl, by omega⟩
    · exact ⟨w', .inl hw, hi⟩
  · exact ⟨w, .inr rfl, by omega⟩

theorem bound_add {m : Memory} {w : Write} (hb : ∀ w ∈ m.writes, w.idx ≤ m.top) :
    ∀ w' ∈ (Memory.add m w).writes, w'.idx ≤ (Memory.add m w).top := by
  intro w' hw'
  simp only [Memory.add, List.mem_append, List.mem_singleton] at hw' ⊢
  rcases hw' with h | rfl
  · have := hb w' h; omega
  · omega

/-- Putting an entry on the stack. -/
theorem push_mem {s : PState} {m : Memory} {w : Write} (h : MemOk s m) (hd : s.depth ≤ s.cur.length) (hi : w.idx = s.depth)
    (hv : s.val.value = w.value.getD (lastValue w.idx m.writes))
    (hdv : s.val.definedValue = w.defined.getD (lastDefined w.idx m.writes)) : MemOk (push s) (Memory.add m w) := by
  by_cases hlt : s.depth < s.cur.length
  · -- no growth
    have e : grow s s.depth = s := by unfold grow; rw [if_neg (by omega)]
    have htop : doublings (Memory.add m w).top = doublings m.top := by
      show doublings (max m.top w.idx) = _
      exact doublings_stay (by rw [hi, ← h.cur]; exact hlt)
    have hold : (push s).old = s.old := by unfold push; rw [e]
    have hcur : (push s).cur = s.cur.set s.depth { s.val with yys := s.state } := by unfold push; rw [e]
    refine ⟨by rw [hold, htop]; exact h.old, by rw [hcur, htop, List.length_set]; exact h.cur, bound_add h.bound,
      reached_add h.reached, ?_, ?_⟩
    · rintro ⟨g, i⟩
      rcases Nat.lt_trichotomy g s.old.length with hg | hg | hg
      · rw [load_old (by rw [hold]; exact hg), hold, ← load_old hg, h.value]
        have hg' : g < doublings m.top := by rw [← h.old]; exact hg
        simp only [Memory.value]
        rw [if_pos (by omega), if_pos (by rw [htop]; omega), upTo_add_old h.reached hg']
      · have hg' : g = doublings m.top := by rw [← h.old]; exact hg
        rw [load_cur (by rw [hold]; exact hg), hcur]
        simp only [Memory.value]
        rw [if_pos (by rw [htop]; omega)]
        have hall : (Memory.add m w).upTo g = m.writes ++ [w] := by
          unfold Memory.upTo Memory.add
          refine takeWhile_all ?_
          intro w' hw'
          have h1 := bound_add h.bound w' hw'
          have h2 := doublings_lt (Memory.add m w).top
          rw [htop, ← hg'] at h2
          simp; omega
        rw [hall, lastValue_append, List.getElem?_set]
        by_cases hc : w.idx = i
        · rw [if_pos hc, if_pos (by omega), if_pos hlt]
          simp only [Option.getD_some]
          rw [hv, hc]
        · rw [if_neg hc, if_neg (by omega), h.curValue]
      · rw [load_none (by rw [hold]; exact hg)]
        simp only [Memory.value]
        rw [if_neg (by rw [htop, ← h.old]; omega)]
    · rintro ⟨g, i⟩
      rcases Nat.lt_trichotomy g s.old.length with hg | hg | hg
      · rw [load_old (by rw [hold]; exact hg), hold, ← load_old hg, h.defined]
        have hg' : g < doublings m.top := by rw [← h.old]; exact hg
        simp only [Memory.defined]
        rw [if_pos (by omega), if_pos (by rw [htop]; omega), upTo_add_old h.reached hg']
      · have hg' : g = doublings m.top := by rw [← h.old]; exact hg
        rw [load_cur (by rw [hold]; exact hg), hcur]
        simp only [Memory.defined]
        rw [if_pos (by rw [htop]; omega)]
        have hall : (Memory.add m w).upTo g = m.writes ++ [w] := by
          unfold Memory.upTo Memory.add
          refine takeWhile_all ?_
          intro w' hw'
          have h1 := bound_add h.bound w' hw'
          have h2 := doublings_lt (Memory.add m w).top
          rw [htop, ← hg'] at h2
          simp; omega
        rw [hall, lastDefined_append, List.getElem?_set]
        by_cases hc : w.idx = i
        · rw [if_pos hc, if_pos (by omega), if_pos hlt]
          simp only [Option.getD_some]
          rw [hdv, hc]
        · rw [if_neg hc, if_neg (by omega), h.curDefined]
      · rw [load_none (by rw [hold]; exact hg)]
        simp only [Memory.defined]
        rw [if_neg (by rw [htop, ← h.old]; omega)]
  · -- growth
    have hd' : s.depth = s.cur.length := by omega
    have e : grow s s.depth = { s with old := s.old ++ [s.cur], cur := s.cur ++ List.replicate s.cur.length {} } := by
      unfold grow; rw [if_pos (by omega)]
    have htop : doublings (Memory.add m w).top = doublings m.top + 1 := by
      show doublings (max m.top w.idx) = _
      exact doublings_next (by rw [hi, hd', h.cur])
    have hold : (push s).old = s.old ++ [s.cur] := by unfold push; rw [e]
    have hcur : (push s).cur = (s.cur ++ List.replicate s.cur.length ({} : RawSym)).set s.depth { s.val with yys := s.state } := by
      unfold push; rw [e]
    have hlo : (push s).old.length = s.old.length + 1 := by rw [hold]; simp
    have hlast : ∀ g, g = doublings m.top → (Memory.add m w).upTo g = m.writes := by
      intro g hg
      unfold Memory.upTo Memory.add
      rw [takeWhile_append_all]
      · rw [List.takeWhile_cons, if_neg, List.append_nil]
        rw [hi, hd', h.cur, hg]; simp
      · intro w' hw'
        have := h.bound w' hw'
        have := doublings_lt m.top
        rw [hg]; simp; omega
    have hall : ∀ g, g = doublings m.top + 1 → (Memory.add m w).upTo g = m.writes ++ [w] := by
      intro g hg
      unfold Memory.upTo Memory.add
      refine takeWhile_all ?_
      intro w' hw'
      have h1 := bound_add h.bound w' hw'
      have h2 := doublings_lt (Memory.add m w).top
      rw [htop, ← hg] at h2
      simp; omega
    have hfresh : ∀ i : Nat, (((s.cur ++ List.replicate s.cur.length ({} : RawSym))[i]?).getD ({} : RawSym)) = (s.cur[i]?).getD {} := by
      intro i
      by_cases hc : i < s.cur.length
      · rw [List.getElem?_append_left hc]
      · rw [List.getElem?_append_right (by omega), List.getElem?_eq_none (by omega : s.cur.length ≤ i), List.getElem?_replicate]
        split <;> rfl
    refine ⟨by rw [hlo, htop, h.old], ?_, bound_add h.bound, reached_add h.reached, ?_, ?_⟩
    · rw [hcur, htop, List.length_set, List.length_append, List.length_replicate, h.cur, Nat.pow_succ]; omega
    · rintro ⟨g, i⟩
      rcases Nat.lt_trichotomy g (s.old.length + 1) with hg | hg | hg
      · have e1 : (push s).load ⟨g, i⟩ = s.load ⟨g, i⟩ := by
          rw [load_old (by rw [hlo]; exact hg), hold]; rfl
        rw [e1, h.value]
        have hg' : g ≤ doublings m.top := by rw [← h.old]; omega
        simp only [Memory.value]
        rw [if_pos hg', if_pos (by rw [htop]; omega)]
        rcases Nat.lt_or_ge g (doublings m.top) with hlt' | hge
        · rw [upTo_add_old h.reached hlt']
        · have : g = doublings m.top := by omega
          rw [hlast g this, this, h.all]
      · have hg' : g = doublings m.top + 1 := by rw [← h.old]; exact hg
        rw [load_cur (by rw [hlo]; exact hg), hcur]
        simp only [Memory.value]
        rw [if_pos (by rw [htop]; omega), hall g hg', lastValue_append, List.getElem?_set]
        by_cases hc : w.idx = i
        · rw [if_pos hc, if_pos (by omega), if_pos (by simp; have := h.cur; have := Nat.two_pow_pos (doublings m.top); omega)]
          simp only [Option.getD_some]
          rw [hv, hc]
        · rw [if_neg hc, if_neg (by omega), hfresh, h.curValue]
      · rw [load_none (by rw [hlo]; exact hg)]
        simp only [Memory.value]
        rw [if_neg (by rw [htop, ← h.old]; omega)]
    · rintro ⟨g, i⟩
      rcases Nat.lt_trichotomy g (s.old.length + 1) with hg | hg | hg
      · have e1 : (push s).load ⟨g, i⟩ = s.load ⟨g, i⟩ := by
          rw [load_old (by rw [hlo]; exact hg), hold]; rfl
        rw [e1, h.defined]
        have hg' : g ≤ doublings m.top := by rw [← h.old]; omega
        simp only [Memory.defined]
        rw [if_pos hg', if_pos (by rw [htop]; omega)]
        rcases Nat.lt_or_ge g (doublings m.top) with hlt' | hge
        · rw [upTo_add_old h.reached hlt']
        · have : g = doublings m.top := by omega
          rw [hlast g this, this, h.all]
      · have hg' : g = doublings m.top + 1 := by rw [← h.old]; exact hg
        rw [load_cur (by rw [hlo]; exact hg), hcur]
        simp only [Memory.defined]
        rw [if_pos (by rw [htop]; omega), hall g hg', lastDefined_append, List.getElem?_set]
        by_cases hc : w.idx = i
        · rw [if_pos hc, if_pos (by omega), if_pos (by simp; have := h.cur; have := Nat.two_pow_pos (doublings m.top); omega)]
          simp only [Option.getD_some]
          rw [hdv, hc]
        · rw [if_neg hc, if_neg (by omega), hfresh, h.curDefined]
      · rw [load_none (by rw [hlo]; exact hg)]
        simp only [Memory.defined]
        rw [if_neg (by rw [htop, ← h.old]; omega)]

/-- The entry of the first state. -/
theorem init_mem (l : LexState) : MemOk (PState.init l) ⟨0, []⟩ := by
  have h : ∀ p : Slot, (PState.init l).load p = {} := by
    rintro ⟨g, i⟩
    have e : (PState.init l).cur = List.replicate 16 {} := rfl
    rcases Nat.lt_trichotomy g (PState.init l).old.length with hg | hg | hg
    · exact absurd hg (by show ¬ g < 0; omega)
    · rw [load_cur hg, e, List.getElem?_replicate]
      split <;> rfl
    · exact load_none hg
  refine ⟨rfl, rfl, by simp, .inl rfl, ?_, ?_⟩
  · rintro p; rw [h]
    simp only [Memory.value, Memory.upTo, List.takeWhile_nil, lastValue, List.foldl_nil, ite_self]
  · rintro p; rw [h]
    simp only [Memory.defined, Memory.upTo, List.takeWhile_nil, lastDefined, List.foldl_nil, ite_self]

/-- The highest place used by the trees of a stack (top first). -/
def topOf : List Tree → Nat
  | [] => 0
  | t :: ts => max (topOf ts) (t.peak (ts.length + 1))

/-- What reading the trees of a stack wrote. -/
def writesOf : List Tree → List Write
  | [] => []
  | t :: ts => writesOf ts ++ t.writes (topOf ts) (ts.length + 1)

/-- The entries of a stack have the values of their trees. -/
def PlacedStack : List RawSym → List Tree → Prop
  | e :: l, t :: ts =>
    (∀ X, symOk X → sym e.yys = symInt X → agree id id (fieldOf X) e (t.placed (topOf ts) (ts.length + 1))) ∧ PlacedStack l ts
  | _, _ => True

/-- The part of the invariant about memory. -/
structure MemInv (s : PState) (st : List RawSym) (ts : List Tree) : Prop where
  ok : MemOk s ⟨topOf ts, writesOf ts⟩
  placed : PlacedStack st ts

theorem peakList_append (p : Nat) (a b : List Tree) :
    Tree.peakList p (a ++ b) = max (Tree.peakList p a) (Tree.peakList (p + a.length) b) := by
  induction a generalizing p with
  | nil => simp [Tree.peakList]
  | cons t a ih =>
    simp only [List.cons_append, Tree.peakList, ih, List.length_cons]
    rw [show p + 1 + a.length = p + (a.length + 1) by omega]
    omega

theorem writesList_append (k p : Nat) (a b : List Tree) :
    Tree.writesList k p (a ++ b) = Tree.writesList k p a ++ Tree.writesList (max k (Tree.peakList p a)) (p + a.length) b := by
  induction a generalizing p k with
  | nil => simp [Tree.writesList, Tree.peakList]
  | cons t a ih =>
    simp only [List.cons_append, Tree.writesList, ih, List.length_cons, List.append_assoc, Tree.peakList]
    rw [show p + 1 + a.length = p + (a.length + 1) by omega, Nat.max_assoc]

theorem placedList_append (k p : Nat) (a b : List Tree) :
    Tree.placedList k p (a ++ b) = Tree.placedList k p a ++ Tree.placedList (max k (Tree.peakList p a)) (p + a.length) b := by
  induction a generalizing p k with
  | nil => simp [Tree.placedList, Tree.peakList]
  | cons t a ih =>
    simp only [List.cons_append, Tree.placedList, ih, List.length_cons, Tree.peakList]
    rw [show p + 1 + a.length = p + (a.length + 1) by omega, Nat.max_assoc]

theorem placedList_length (k p : Nat) (a : List Tree) : (Tree.placedList k p a).length = a.length := by
  induction a generalizing p k with
  | nil => simp [Tree.placedList]
  | cons t a ih => simp [Tree.placedList, ih]

theorem topOf_append (kids ts : List Tree) :
    topOf (kids ++ ts) = max (topOf ts) (Tree.peakList (ts.length + 1) kids.reverse) := by
  induction kids with
  | nil => simp [Tree.peakList]
  | cons t kids ih =>
    simp only [List.cons_append, topOf, ih, List.reverse_cons, peakList_append, Tree.peakList, List.length_append, List.length_reverse]
    rw [show ts.length + 1 + kids.length = kids.length + ts.length + 1 by omega]
    omega

theorem writesOf_append (kids ts : List Tree) :
    writesOf (kids ++ ts) = writesOf ts ++ Tree.writesList (topOf ts) (ts.length + 1) kids.reverse := by
  induction kids with
  | nil => simp [Tree.writesList]
  | cons t kids ih =>
    simp only [List.cons_append, writesOf, ih, List.reverse_cons, writesList_append, Tree.writesList, List.length_append,
      List.length_reverse, topOf_append, List.append_nil, List.append_assoc]
    rw [show ts.length + 1 + kids.length = kids.length + ts.length + 1 by omega]

/-- The entries popped have the values of their trees. -/
theorem placed_pop : ∀ {es : List RawSym} {kids : List Tree} {st : List RawSym} {ts : List Tree}, es.length = kids.length →
    PlacedStack (es ++ st) (kids ++ ts) →
    PlacedStack st ts ∧ ∀ i e, es[i]? = some e → ∀ X, symOk X → sym e.yys = symInt X →
      ∃ v, (Tree.placedList (topOf ts) (ts.length + 1) kids.reverse)[kids.length - 1 - i]? = some v ∧ agree id id (fieldOf X) e v
  | [], [], st, ts, _, h => ⟨h, fun i e h => by simp at h⟩
  | e :: es, t :: kids, st, ts, hl, h => by
    have h : (∀ X, symOk X → sym e.yys = symInt X →
      agree id id (fieldOf X) e (t.placed (topOf (kids ++ ts)) ((kids ++ ts).length + 1))) ∧ PlacedStack (es ++ st) (kids ++ ts) := h
    have hl' : es.length = kids.length := by simpa using hl
    obtain ⟨h1, h2⟩ := placed_pop hl' h.2
    refine ⟨h1, ?_⟩
    intro i e' hi X hX hs
    rw [List.reverse_cons, placedList_append]
    cases i with
    | zero =>
      simp only [List.getElem?_cons_zero, Option.some.injEq] at hi
      subst hi
      refine ⟨_, ?_, h.1 X hX hs⟩
      rw [List.getElem?_append_right (by rw [placedList_length]; simp), placedList_length]
      simp only [List.length_cons, List.length_reverse, Nat.add_sub_cancel, Nat.sub_zero, Nat.sub_self, Tree.placedList,
        List.getElem?_cons_zero, topOf_append, List.length_append]
      rw [show ts.length + 1 + kids.length = kids.length + ts.length + 1 by omega]
    | succ i =>
      obtain ⟨v, hv, ha⟩ := h2 i e' (by simpa using hi) X hX hs
      have hlt : i < es.length := by
        have : (e :: es)[i + 1]? = es[i]? := rfl
        rw [this] at hi
        exact (List.getElem?_eq_some_iff.1 hi).1
      refine ⟨v, ?_, ha⟩
      rw [List.getElem?_append_left (by rw [placedList_length]; simp; omega)]
      simp only [List.length_cons]
      rw [show kids.length + 1 - 1 - (i + 1) = kids.length - 1 - i by omega]
      exact hv

theorem valueNT_field : ∀ k ∈ valueNTs, fieldOf (.n k) = .value := by decide +kernel

theorem definedNT_field : fieldOf (.n NT.«DefinedValue») = .definedValue := by decide +kernel

theorem Value.map_id {R : Type} (v : Value R) : v.map id = v := by
  cases v with
  | objectIdentifier l =>
    have : (ObjectIdElement.map (id : R → R)) = id := by
      funext e
      cases e
      simp [ObjectIdElement.map]
    simp [Value.map, this]
  | _ => rfl

theorem Stk.length : ∀ {st : List RawSym} {ts : List Tree} {done : List Token}, Stk st ts done → st.length = ts.length + 1 := by
  intro st ts done h
  induction h with
  | base => rfl
  | cons e p l t ts done toks X _ _ _ _ _ _ _ ih => simp only [List.length_cons] at ih ⊢; omega

theorem push_arrays {s s' : PState} (h1 : s'.old = s.old) (h2 : s'.cur = s.cur) (h3 : s'.depth = s.depth) (h4 : s'.val = s.val)
    (h5 : s'.state = s.state) : (push s').old = (push s).old ∧ (push s').cur = (push s).cur := by
  unfold push grow
  rw [h2, h3]
  split <;> simp only [h1, h2, h3, h4, h5, and_self]

theorem MemOk.congr {s s' : PState} {m : Memory} (h : MemOk s m) (h1 : s'.old = s.old) (h2 : s'.cur = s.cur) : MemOk s' m := by
  have e : ∀ p, s'.load p = s.load p := by intro p; unfold PState.load; rw [h1, h2]
  exact ⟨by rw [h1]; exact h.old, by rw [h2]; exact h.cur, h.bound, h.reached, fun p => by rw [e]; exact h.value p,
    fun p => by rw [e]; exact h.defined p⟩

/-- Growing twice is growing once. -/
theorem push_grown {s : PState} {i st : Nat} {v : RawSym} {res : Option (ModuleDefinition RefPtr Slot)} (hpos : 0 < s.cur.length)
    (hi : i ≤ s.cur.length) :
    (push { grow s i with depth := i, state := st, val := v, result := res }).old =
        (push { s with depth := i, state := st, val := v, result := res }).old ∧
      (push { grow s i with depth := i, state := st, val := v, result := res }).cur =
        (push { s with depth := i, state := st, val := v, result := res }).cur := by
  by_cases h : s.cur.length ≤ i
  · have e1 : grow s i = { s with old := s.old ++ [s.cur], cur := s.cur ++ List.replicate s.cur.length {} } := by
      unfold grow; rw [if_pos h]
    rw [e1]
    unfold push grow
    simp only
    rw [if_neg (by rw [List.length_append, List.length_replicate]; omega), if_pos h]
    exact ⟨rfl, rfl⟩
  · have e1 : grow s i = s := by unfold grow; rw [if_neg h]
    rw [e1]
    exact ⟨rfl, rfl⟩

/-- The number of the array after growing. -/
theorem grow_old {s : PState} {m : Memory} {i : Nat} (h : MemOk s m) (hi : i ≤ s.cur.length) :
    (grow s i).old.length = doublings (max m.top i) := by
  by_cases hc : s.cur.length ≤ i
  · unfold grow
    rw [if_pos hc, List.length_append, List.length_singleton, h.old, doublings_next (by rw [← h.cur]; omega)]
  · unfold grow
    rw [if_neg hc, h.old, doublings_stay (by rw [← h.cur]; omega)]

/-- Growing leaves fresh entries. -/
theorem grow_get {s : PState} {i : Nat} {v : RawSym} (h : (grow s i).cur[i]? = some v) : (s.cur[i]?).getD {} = v := by
  unfold grow at h
  split at h
  · rename_i hc
    simp only at h
    rw [List.getElem?_append_right hc, List.getElem?_replicate] at h
    rw [List.getElem?_eq_none hc]
    split at h
    · simpa using h
    · cases h
  · rw [h]; rfl

/-- The memory after a reduction. -/
theorem reduce_mem {s : PState} {ts' kids : List Tree} {r lhs st : Nat} {rhs : List Sym} {v : RawSym} {ptrs : Pointers RefPtr Slot}
    {d : Nat → RawSym} {res : Option (ModuleDefinition RefPtr Slot)} (h : MemOk s ⟨topOf (kids ++ ts'), writesOf (kids ++ ts')⟩)
    (hpos : 0 < s.cur.length) (hle : ts'.length + 1 ≤ s.cur.length) (hr : 1 ≤ r) (hrule : rules[r - 1]? = some (lhs, rhs))
    (hv : (grow s (ts'.length + 1)).cur[ts'.length + 1]? = some v)
    (hag : agree id id (fieldOf (.n lhs)) (action r ptrs d v) (Tree.placed (topOf ts') (ts'.length + 1) (.node r kids.reverse))) :
    MemOk (push { grow s (ts'.length + 1) with depth := ts'.length + 1, state := st, val := action r ptrs d v, result := res })
      ⟨topOf (.node r kids.reverse :: ts'), writesOf (.node r kids.reverse :: ts')⟩ := by
  have hlhs : lhsOf r = lhs := by unfold lhsOf; rw [hrule]; rfl
  obtain ⟨e1, e2⟩ := push_grown (s := s) (i := ts'.length + 1) (st := st) (v := action r ptrs d v) (res := res) hpos hle
  refine MemOk.congr (s := push { s with depth := ts'.length + 1, state := st, val := action r ptrs d v, result := res }) ?_ e1 e2
  have hv' := grow_get hv
  have hm : (⟨topOf (.node r kids.reverse :: ts'), writesOf (.node r kids.reverse :: ts')⟩ : Memory) =
      Memory.add ⟨topOf (kids ++ ts'), writesOf (kids ++ ts')⟩
        ⟨ts'.length + 1, if lhsOf r ∈ valueNTs then some (Tree.placed (topOf ts') (ts'.length + 1) (.node r kids.reverse)).value else none,
          if lhsOf r = NT.«DefinedValue» then some (Tree.placed (topOf ts') (ts'.length + 1) (.node r kids.reverse)).definedValue
          else none⟩ := by
    unfold Memory.add
    simp only [topOf, writesOf, Tree.writes, topOf_append, writesOf_append, Tree.peak, List.append_assoc, Memory.mk.injEq, and_true]
    omega
  rw [hm]
  refine push_mem (h.congr rfl rfl) hle rfl ?_ ?_
  · show (action r ptrs d v).value = _
    by_cases hc : lhsOf r ∈ valueNTs
    · rw [if_pos hc]
      rw [valueNT_field _ (hlhs ▸ hc)] at hag
      have : ((action r ptrs d v).value).map id = _ := hag
      rw [Value.map_id] at this
      exact this
    · rw [if_neg hc, action_value r hr (ruleOf_le hrule) hc ptrs d v, ← hv', h.curValue]; rfl
  · show (action r ptrs d v).definedValue = _
    by_cases hc : lhsOf r = NT.«DefinedValue»
    · rw [if_pos hc]
      rw [← hlhs, hc, definedNT_field] at hag
      exact hag
    · rw [if_neg hc, action_defined r hr (ruleOf_le hrule) hc ptrs d v, ← hv', h.curDefined]; rfl

/-- The module seen through the memory left by the tree of the module. -/
theorem exact_of_mem {s : PState} {r : Nat} {kids : List Tree} {m : ModuleDefinition RefPtr Slot}
    (h : MemOk s ⟨topOf [.node r kids], writesOf [.node r kids]⟩)
    (hm : m.map id id = moduleOf (dollars (Tree.placedList 0 1 kids))) :
    m.map s.derefRef s.derefValue = Tree.exact (.node r kids) := by
  have hmem : (⟨topOf [.node r kids], writesOf [.node r kids]⟩ : Memory) = Tree.memory (.node r kids) := by
    simp [topOf, writesOf, Tree.memory]
  rw [hmem] at h
  have h1 : s.derefRef = (Tree.memory (.node r kids)).ref := by
    funext p
    cases p with
    | copy d => rfl
    | slot p => exact h.defined p
  have h2 : s.derefValue = (Tree.memory (.node r kids)).deref := by
    funext p
    unfold PState.derefValue Memory.deref
    rw [h.value, h1]
  show _ = (moduleOf (dollars (Tree.placedList 0 1 kids))).map _ _
  rw [← hm, ModuleDefinition.map_map, h1, h2]
  rfl

end Asn1go.LR
