import Verif.Spec.Kept
import Verif.Proofs.LR.Result

/-! Pointers to what is not overwritten. -/

namespace Asn1go.LR

open Asn1go Spec

mutual

theorem writes_places (k p : Nat) : ∀ t : Tree, (t.writes k p).map Write.idx = t.places p
  | .leaf _ _ => by simp [Tree.writes, Tree.places]
  | .node r kids => by simp [Tree.writes, Tree.places, writesList_places k p kids]

theorem writesList_places (k p : Nat) : ∀ l : List Tree, (Tree.writesList k p l).map Write.idx = Tree.placesList p l
  | [] => by simp [Tree.writesList, Tree.placesList]
  | t :: l => by simp [Tree.writesList, Tree.placesList, writes_places k p t, writesList_places _ (p + 1) l]

end

mutual

theorem places_range (p : Nat) : ∀ t : Tree, ∀ i ∈ t.places p, p ≤ i ∧ i ≤ t.peak p
  | .leaf _ _ => by simp [Tree.places, Tree.peak]
  | .node r kids => by
    intro i hi
    simp only [Tree.places, List.mem_append, List.mem_singleton] at hi
    rw [Tree.peak]
    rcases hi with hi | rfl
    · have := placesList_range p kids i hi; omega
    · omega

theorem placesList_range (p : Nat) : ∀ l : List Tree, ∀ i ∈ Tree.placesList p l, p ≤ i ∧ i ≤ Tree.peakList p l
  | [] => by simp [Tree.placesList]
  | t :: l => by
    intro i hi
    simp only [Tree.placesList, List.mem_append] at hi
    rw [Tree.peakList]
    rcases hi with hi | hi
    · have := places_range p t i hi; omega
    · have := placesList_range (p + 1) l i hi; omega

end

theorem writes_range {k p : Nat} {t : Tree} {w : Write} (h : w ∈ t.writes k p) : p ≤ w.idx ∧ w.idx ≤ t.peak p :=
  places_range p t _ (writes_places k p t ▸ List.mem_map_of_mem h)

theorem writesList_range {k p : Nat} {l : List Tree} {w : Write} (h : w ∈ Tree.writesList k p l) :
    p ≤ w.idx ∧ w.idx ≤ Tree.peakList p l :=
  placesList_range p l _ (writesList_places k p l ▸ List.mem_map_of_mem h)

theorem lastValue_untouched {i : Nat} {l' : List Write} (h : ∀ w ∈ l', w.idx ≠ i) (l : List Write) :
    lastValue i (l ++ l') = lastValue i l := by
  induction l' generalizing l with
  | nil => simp
  | cons w l' ih =>
    rw [List.append_cons, ih (fun w hw => h w (by simp [hw])), lastValue_append, if_neg (h w (by simp))]

theorem lastDefined_untouched {i : Nat} {l' : List Write} (h : ∀ w ∈ l', w.idx ≠ i) (l : List Write) :
    lastDefined i (l ++ l') = lastDefined i l := by
  induction l' generalizing l with
  | nil => simp
  | cons w l' ih =>
    rw [List.append_cons, ih (fun w hw => h w (by simp [hw])), lastDefined_append, if_neg (h w (by simp))]

theorem untouched_writes {g i : Nat} {W : List Write} (h : untouched g i (W.map Write.idx) = true) :
    ∀ w ∈ W.takeWhile (fun w => decide (w.idx < 16 * 2 ^ g)), w.idx ≠ i := by
  unfold untouched at h
  rw [List.takeWhile_map, List.all_map, List.all_eq_true] at h
  intro w hw
  have := h w hw
  simpa using this

/-- The writes an array sees: all up to now and the first of the later ones. -/
theorem upTo_split {m : Memory} {A B : List Write} {g : Nat} (h : m.writes = A ++ B) (hA : ∀ w ∈ A, w.idx < 16 * 2 ^ g) :
    m.upTo g = A ++ B.takeWhile (fun w => decide (w.idx < 16 * 2 ^ g)) := by
  unfold Memory.upTo
  rw [h, takeWhile_append_all (by simpa using hA)]

theorem value_last {k p : Nat} {toks : List Token} {t : Tree} (h : Derives (.n NT.«Value») toks t) :
    ∃ l d, t.writes k p = l ++ [⟨p, some (t.placed k p).value, d⟩] := by
  cases h with
  | node r lhs rhs toks kids hr hrule hk =>
    have : lhsOf r = NT.«Value» := by unfold lhsOf; rw [hrule]; rfl
    rw [Tree.writes, this, if_pos (by decide)]
    exact ⟨_, _, rfl⟩

theorem defined_last {k p : Nat} {toks : List Token} {t : Tree} (h : Derives (.n NT.«DefinedValue») toks t) :
    ∃ l d, t.writes k p = l ++ [⟨p, d, some (t.placed k p).definedValue⟩] := by
  cases h with
  | node r lhs rhs toks kids hr hrule hk =>
    have : lhsOf r = NT.«DefinedValue» := by unfold lhsOf; rw [hrule]; rfl
    rw [Tree.writes, this, if_pos rfl]
    exact ⟨_, _, rfl⟩

mutual

/-- What is read through kept pointers is what was written. -/
theorem kept_agree (m : Memory) : ∀ {X : Sym} {toks : List Token} {t : Tree}, Derives X toks t → ∀ (k p : Nat) (A B : List Write),
    m.writes = A ++ t.writes k p ++ B → (∀ w ∈ A, w.idx ≤ k) → max k (t.peak p) ≤ m.top → t.kept (B.map Write.idx) k p = true →
    agree m.ref m.deref (fieldOf X) (t.placed k p) (t.eval idealPointers)
  | _, _, _, .leaf code w, _, _, _, _, _, _, _, _ => by
    simp only [Tree.placed, Tree.eval, leafValue, fieldOf]
    split
    · rfl
    · split
      · rfl
      · trivial
  | _, _, _, .node r lhs rhs toks kids hr hrule hk, k, p, A, B, hw, hA, htop, hkept => by
    have hr291 : r ≤ 291 := ruleOf_le hrule
    rw [Tree.kept] at hkept
    simp only [Bool.and_eq_true, Bool.or_eq_true, bne_iff_ne, ne_eq] at hkept
    obtain ⟨⟨hk1, hk2⟩, hk3⟩ := hkept
    rw [Tree.peak] at htop
    generalize hg : doublings (max k (max p (Tree.peakList p kids))) = g at hk2 hk3
    have hglt := doublings_lt (max k (max p (Tree.peakList p kids)))
    rw [hg] at hglt
    have hgtop : g ≤ doublings m.top := by rw [← hg]; exact doublings_mono htop
    rw [Tree.writes] at hw
    generalize hown : (⟨p, _, _⟩ : Write) = own at hw
    have hownp : own.idx = p := by rw [← hown]
    have hkids := keptList_agree m hk k p A (own :: B) (by rw [hw]; simp) hA (by omega) (by rw [List.map_cons, hownp]; exact hk1)
    have hlt : ∀ w ∈ A ++ Tree.writesList k p kids ++ [own], w.idx < 16 * 2 ^ g := by
      intro w hw'
      rcases List.mem_append.1 hw' with hw' | hw'
      · rcases List.mem_append.1 hw' with hw' | hw'
        · have := hA w hw'; omega
        · have := (writesList_range hw').2; omega
      · have : w = own := by simpa using hw'
        rw [this, hownp]; omega
    have hup := upTo_split (m := m) (A := A ++ Tree.writesList k p kids ++ [own]) (B := B) (g := g) (by rw [hw]; simp) hlt
    rw [Tree.placed, eval_node, hg]
    refine ruleAgree m.ref m.deref r hr hr291 lhs rhs hrule _ _ _ _ _ _ ?_ ?_ (fun _ => rfl) hkids ?_
    · rintro rfl
      cases hrule
      have hv := hkids 2 _ rfl
      refine Eq.trans ?_ hv
      show m.deref ⟨g, p + 2⟩ = _
      have hun := hk2.resolve_left (by simp)
      cases hk with
      | cons _ _ _ _ a _ ha hk =>
        cases hk with
        | cons _ _ _ _ b _ hb hk =>
          cases hk with
          | cons _ _ _ _ c _ hc hk =>
            cases hk
            unfold Memory.deref Memory.value
            simp only
            rw [if_pos hgtop, hup, lastValue_untouched (untouched_writes hun), lastValue_append, if_neg (by rw [hownp]; omega)]
            simp only [Tree.writesList, List.append_nil, Tree.placedList, dollars, Nat.add_one_sub_one]
            obtain ⟨l, d, hc'⟩ := value_last (k := max (max k (a.peak p)) (b.peak (p + 1))) (p := p + 1 + 1) hc
            rw [hc', ← List.append_assoc, ← List.append_assoc, ← List.append_assoc, lastValue_append, if_pos rfl]
            rfl
    · rintro rfl
      cases hrule
      have hv := hkids 1 _ rfl
      refine Eq.trans ?_ hv
      show m.ref (.slot ⟨g, p + 1⟩) = _
      have hun := hk3.resolve_left (by simp)
      cases hk with
      | cons _ _ _ _ a _ ha hk =>
        cases hk with
        | cons _ _ _ _ b rest hb hk =>
          unfold Memory.ref Memory.defined
          simp only
          rw [if_pos hgtop, hup, lastDefined_untouched (untouched_writes hun), lastDefined_append, if_neg (by rw [hownp]; omega)]
          simp only [Tree.writesList, Tree.placedList, dollars]
          obtain ⟨l, d, hb'⟩ := defined_last (k := max k (a.peak p)) (p := p + 1) hb
          rw [← List.append_assoc, ← List.append_assoc, lastDefined_untouched (fun w hw => by have := (writesList_range hw).1; omega),
            hb', ← List.append_assoc, lastDefined_append, if_pos rfl]
          rfl
    · intro hne
      cases hk with
      | nil => exact absurd rfl hne
      | cons => simp only [Tree.placedList]; exact ⟨rfl, rfl⟩

theorem keptList_agree (m : Memory) : ∀ {rhs : List Sym} {toks : List Token} {kids : List Tree}, DerivesList rhs toks kids →
    ∀ (k p : Nat) (A B : List Write), m.writes = A ++ Tree.writesList k p kids ++ B → (∀ w ∈ A, w.idx ≤ k) →
      max k (Tree.peakList p kids) ≤ m.top → Tree.keptList (B.map Write.idx) k p kids = true →
      ∀ i X, rhs[i]? = some X → agree m.ref m.deref (fieldOf X) (dollars (Tree.placedList k p kids) (i + 1))
        (dollars (kids.map (Tree.eval idealPointers)) (i + 1))
  | _, _, _, .nil, _, _, _, _, _, _, _, _ => fun i X h => by simp at h
  | _, _, _, .cons X l a b t ts ht hts, k, p, A, B, hw, hA, htop, hkept => fun i Y h => by
    rw [Tree.keptList, Bool.and_eq_true] at hkept
    rw [Tree.peakList] at htop
    rw [Tree.writesList] at hw
    cases i with
    | zero =>
      simp at h
      subst h
      refine kept_agree m ht k p A (Tree.writesList (max k (t.peak p)) (p + 1) ts ++ B) ?_ hA (by omega) ?_
      · rw [hw]; simp
      · rw [List.map_append, writesList_places]; exact hkept.1
    | succ i =>
      have := keptList_agree m hts (max k (t.peak p)) (p + 1) (A ++ t.writes k p) B (by rw [hw]; simp) ?_ (by omega) hkept.2 i Y
        (by simpa using h)
      · simpa [dollars, Tree.placedList] using this
      · intro w hw'
        rcases List.mem_append.1 hw' with hw' | hw'
        · have := hA w hw'; omega
        · have := (writes_range hw').2; omega

end

/-- A module none of whose pointers is overwritten is the one meant. -/
theorem exact_of_kept {toks : List Token} {t : Tree} (h : Derives (.n NT.ModuleDefinition) toks t) (hk : t.Kept) : t.exact = t.ideal := by
  obtain ⟨kids, rfl, hd⟩ := inv_ModuleDefinition h
  have hk : Tree.kept [] 0 1 (.node 1 kids) = true := hk
  rw [Tree.kept] at hk
  simp only [Bool.and_eq_true] at hk
  obtain ⟨own, hown, hmem⟩ : ∃ own : Write, own.idx = 1 ∧
      (Tree.memory (.node 1 kids)).writes = [] ++ Tree.writesList 0 1 kids ++ [own] := by
    simp only [Tree.memory, Tree.writes]
    exact ⟨_, rfl, rfl⟩
  have hkids := keptList_agree (Tree.memory (.node 1 kids)) hd 0 1 [] [own] hmem (by simp)
    (by simp only [Tree.memory, Tree.peak]; omega) (by rw [List.map_singleton, hown]; exact hk.1.1)
  have k1 : (dollars (Tree.placedList 0 1 kids) 1).moduleIdentifier = _ := hkids 0 _ rfl
  have k3 : (dollars (Tree.placedList 0 1 kids) 3).tagDefault = _ := hkids 2 _ rfl
  have k4 : (dollars (Tree.placedList 0 1 kids) 4).extensionDefault = _ := hkids 3 _ rfl
  have k7 : (dollars (Tree.placedList 0 1 kids) 7).moduleBody.map (Tree.memory (.node 1 kids)).ref (Tree.memory (.node 1 kids)).deref = _ := hkids 6 _ rfl
  simp only [Tree.exact, Tree.ideal, Tree.module, evalList_eq, moduleOf, ModuleDefinition.map, k1, k3, k4, k7]

end Asn1go.LR
