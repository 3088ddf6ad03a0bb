import Verif.Proofs.LR.Inv

/-! One round of the parser's loop keeps the invariant and decreases the measure. -/

namespace Asn1go.LR

open Asn1go Spec

/-- What bounds the number of rounds still to go. -/
def measure (s : PState) (st : List RawSym) : Nat := potential st + 34 * pending s

theorem weight_le (x : Int) : weight x ≤ 17 := by
  unfold weight
  split
  · exact Nat.le_refl _
  · split <;> omega

theorem shift_inv {u : Unicode} {text : Str} {fin : ReadEnd} {s s' : PState} {st : List RawSym} {ts : List Tree} {done : List Token} {n : Nat}
    (h : Inv u text fin s st ts done) (hf : Fetched u s s') (ht : TokOk s') (hs : ShiftOk s.state n s'.token) :
    ∃ e p, e.yys = n ∧ Inv u text fin (shift n s') (e :: st) (.leaf s'.char p :: ts) (done ++ [(s'.char, p)]) ∧
      measure (shift n s') (e :: st) < measure s st := by
  have hfr := hf.frame
  have hlex := hf.lexInv h.lex
  have hp := hf.pending_le
  have hc : 57346 ≤ s'.char ∧ s'.token = s'.char - 57342 := by
    rcases ht with ht | ht
    · have := hs.token; omega
    · exact ⟨ht.1, ht.2.2⟩
  obtain ⟨p, l, hpay, hlval, hl'⟩ : ∃ p l, PayloadOk s'.char p ∧ s'.lval = p.apply l ∧
      ∀ s'' : PState, s''.lexer = s'.lexer → s''.char = -1 → LexInv u text s'' (done ++ [(s'.char, p)]) := by
    cases hlex with
    | failed he h =>
      obtain ⟨p, l, h1, h2⟩ := h (by omega)
      exact ⟨p, l, h1, h2, fun s'' e1 e2 => .failed (by rw [e1]; exact he) (by rw [e2]; intro h; omega)⟩
    | ready h => omega
    | pending p l h1 h2 h3 h4 =>
      refine ⟨p, l, h2, h3, fun s'' e1 e2 => .ready (by omega) ?_⟩
      intro toks
      rw [e1]
      intro ht
      simpa using h4 toks ht
    | eof h => omega
  have hview : View s' st := by
    obtain ⟨h1, h2, h3⟩ := h.view
    exact ⟨by rw [hfr.2.2.1, hfr.2.2.2.1]; exact h1, by rw [hfr.2.2.1, hfr.2.2.2.1]; exact h2, by rw [hfr.2.2.1]; exact h3⟩
  obtain ⟨e, l0, rfl⟩ : ∃ e l0, st = e :: l0 := by
    have := h.top
    cases st with
    | nil => simp at this
    | cons e l => exact ⟨e, l, rfl⟩
  have htop : e.yys = s.state := by simpa using h.top
  let s1 : PState := { s' with char := -1, token := -1, state := n, errflag := s'.errflag - 1, val := leafOf s'.lval }
  have hsh : shift n s' = push s1 := rfl
  have hv1 : View s1 (e :: l0) := ⟨hview.take, hview.le, hview.pos⟩
  have hpf := push_fields s1
  rw [hsh]
  refine ⟨_, p, ?_, ⟨push_view hv1, .cons _ _ _ _ _ _ _ (.t s'.char) h.stk hs.lt ?_ ?_ ?_ (.leaf s'.char p) ?_, ?_, ?_, ?_, ?_, ?_,
    by rw [hpf.1]; exact hf.hist h.hist, ?_, ?_⟩, ?_⟩
  · rfl
  · show e.yys ∈ preds n; rw [htop]; exact hs.pred
  · exact hc.1
  · show sym n = _; rw [hs.sym, hc.2]; rfl
  · have := leaf_agree (f := knownRef) (g := noSlot) hpay l n
    rw [← hlval] at this
    rw [show eval0 (.leaf s'.char p) = leafValue p by simp [eval0, Tree.eval]]
    exact this
  · simp [hpf.2.2.2.2.2.1]
  · rw [hpf.2.2.2.2.2.2]
    show s'.errflag - 1 = 0
    rw [hfr.2.2.2.2.2.2.1, h.errflag]
  · left; rw [hpf.2.2.2.1]; show (-1 : Int) < 0; omega
  · exact hl' _ (by rw [hpf.1]) (by rw [hpf.2.2.2.1])
  · intro h1
    rw [hpf.2.2.2.2.2.1] at h1
    exact absurd h1 hs.ne
  · have hlen := h.stk.length
    have hd := hv1.len
    refine push_mem (s := s1) (w := ⟨ts.length + 1, some .nil, some {}⟩) (MemOk.congr (s := s) h.mem.ok hfr.2.1 hfr.2.2.1) hv1.le ?_ rfl rfl
    exact hlen.symm.trans hd
  · refine ⟨?_, h.mem.placed⟩
    intro X hX hsX
    have hX' : X = .t s'.char := by
      refine symInt_inj hX hc.1 (hsX.symm.trans ?_)
      show sym n = _; rw [hs.sym, hc.2]; rfl
    subst hX'
    have := leaf_agree (f := (id : RefPtr → RefPtr)) (g := (id : Slot → Slot)) hpay l n
    rw [← hlval] at this
    rw [show Tree.placed (topOf ts) (ts.length + 1) (.leaf s'.char p) = leafValue p by simp [Tree.placed]]
    exact this
  · unfold measure
    have hpend : pending (push s1) + 1 = pending s' := by
      unfold pending
      rw [hpf.1, hpf.2.2.2.1, if_pos (by omega : 0 < s'.char)]
      rfl
    rw [potential_eq, potential_eq, List.dropLast_cons_of_ne_nil (by simp)]
    have h1 := rank_le hs.lt
    have h2 := weight_le (sym n)
    simp only [List.map_cons, List.sum_cons]
    have e1 : s1.state = n := rfl
    rw [e1]
    omega

theorem sum_append_map {α : Type} (f : α → Nat) (a b : List α) : ((a ++ b).map f).sum = (a.map f).sum + (b.map f).sum := by
  simp

theorem reduce_inv {u : Unicode} {text : Str} {fin : ReadEnd} {s s' : PState} {st : List RawSym} {ts : List Tree} {done : List Token}
    {r lhs : Nat} {rhs : List Sym} {B : List Nat}
    (h : Inv u text fin s st ts done) (hf : Fetched u s s') (ht : s'.char < 0 ∨ TokOk s') (hr : ReduceOk s.state r lhs rhs B) :
    ∃ s2 e es b l kids ts' g, reduce r s' = .ok s2 ∧ st = es ++ b :: l ∧ es.length = rhs.length ∧ ts = kids ++ ts' ∧
      kids.length = rhs.length ∧ gotoState lhs b.yys = .ok g ∧ e.yys = g ∧
      s2.lexer = s'.lexer ∧ s2.lval = s'.lval ∧ s2.char = s'.char ∧ s2.token = s'.token ∧
      Inv u text fin s2 (e :: b :: l) (.node r kids.reverse :: ts') done ∧ measure s2 (e :: b :: l) < measure s st := by
  have hfr := hf.frame
  have hlex := hf.lexInv h.lex
  have hp := hf.pending_le
  have hview : View s' st := by
    obtain ⟨h1, h2, h3⟩ := h.view
    exact ⟨by rw [hfr.2.2.1, hfr.2.2.2.1]; exact h1, by rw [hfr.2.2.1, hfr.2.2.2.1]; exact h2, by rw [hfr.2.2.1]; exact h3⟩
  obtain ⟨e, l0, rfl⟩ : ∃ e l0, st = e :: l0 := by
    have := h.top
    cases st with
    | nil => simp at this
    | cons e l => exact ⟨e, l, rfl⟩
  have htop : e.yys = s.state := by simpa using h.top
  have hw := hr.walk
  rw [← List.map_reverse] at hw
  obtain ⟨es, b, l', kids, ts', done', toks, pop⟩ := walk_pop hw
    (fun X hX => ruleOf_symOk hr.rule X (List.mem_reverse.1 hX)) (by simp [htop]) h.stk
  obtain ⟨g, hg, hg1, hg2, hg3, hg4, hg5⟩ := hr.goto _ pop.mem
  have hlen : es.length = rhs.length := by simpa using pop.len
  have hklen : kids.length = rhs.length := by simpa using pop.klen
  have hdepth : s'.depth = rhs.length + l'.length + 1 := by
    rw [← hview.len, pop.stack]; simp [hlen]; omega
  unfold reduce
  rw [hr.len, ok_bind, hr.isLhs, ok_bind]
  simp only [Int.toNat_natCast]
  rw [if_neg (by omega)]
  have hvg := grow_view hview (i := s'.depth - rhs.length)
  have hltg := grow_lt hview (i := s'.depth - rhs.length) (by omega)
  generalize hgs : grow s' (s'.depth - rhs.length) = sg at *
  have hgd : sg.depth = s'.depth := by rw [← hgs]; unfold grow; split <;> rfl
  have hgf : sg.lexer = s'.lexer ∧ sg.lval = s'.lval ∧ sg.char = s'.char ∧ sg.token = s'.token ∧ sg.errflag = s'.errflag ∧
      sg.result = s'.result := by
    rw [← hgs]; unfold grow; split <;> exact ⟨rfl, rfl, rfl, rfl, rfl, rfl⟩
  have hbase : sg.depth - rhs.length = l'.length + 1 := by omega
  rw [hbase]
  -- entries of the stack
  have hget : ∀ i, i < rhs.length → sg.cur[l'.length + 1 + i]? = es[rhs.length - 1 - i]? := by
    intro i hi
    rw [hvg.get (by omega), pop.stack, List.getElem?_append_left (by omega)]
    congr 1
    omega
  have hgetb : sg.cur[l'.length + 1 - 1]? = some b := by
    rw [hvg.get (by omega), pop.stack, List.getElem?_append_right (by omega)]
    rw [show sg.depth - 1 - (l'.length + 1 - 1) - es.length = 0 by omega]
    rfl
  obtain ⟨v, hv⟩ : ∃ v, sg.cur[l'.length + 1]? = some v := ⟨_, List.getElem?_eq_getElem (by omega)⟩
  rw [hv, hgetb]
  simp only
  rw [hg, ok_bind]
  have hbview : View { sg with depth := l'.length + 1 } (b :: l') := by
    refine ⟨?_, ?_, hvg.pos⟩
    · have h1 := hvg.take
      rw [pop.stack] at h1
      have h2 : (sg.cur.take sg.depth).take (l'.length + 1) = (b :: l').reverse := by
        rw [h1, List.reverse_append, List.take_append_of_le_length (by simp), List.take_of_length_le (by simp)]
      rw [List.take_take, Nat.min_eq_left (by omega)] at h2
      exact h2
    · show l'.length + 1 ≤ sg.cur.length
      omega
  -- children agree
  have hkid : ∀ i X, rhs[i]? = some X → agree knownRef noSlot (fieldOf X)
      ((fun i => (sg.cur[l'.length + 1 + i - 1]?).getD {}) (i + 1)) (dollars (kids.reverse.map eval0) (i + 1)) := by
    intro i X hi
    have hlt : i < rhs.length := (List.getElem?_eq_some_iff.1 hi).1
    have hrev : rhs.reverse[rhs.length - 1 - i]? = some X := by
      rw [List.getElem?_reverse (by omega), show rhs.length - 1 - (rhs.length - 1 - i) = i by omega]; exact hi
    obtain ⟨e', t, h1, h2, h3⟩ := pop.agree _ X hrev
    have e1 : sg.cur[l'.length + 1 + (i + 1) - 1]? = some e' := by
      rw [show l'.length + 1 + (i + 1) - 1 = l'.length + 1 + i by omega, hget i hlt, h1]
    have e2 : (kids.reverse.map eval0)[i]? = some (eval0 t) := by
      rw [List.getElem?_map, List.getElem?_reverse (by omega), hklen, h2]; rfl
    simp only [dollars, Nat.add_sub_cancel]
    rw [e1, e2]
    exact h3
  have hts' : l'.length = ts'.length := by have := pop.stk.length; simp at this; exact this
  have hpl : PlacedStack (es ++ b :: l') (kids ++ ts') := by rw [← pop.stack, ← pop.trees]; exact h.mem.placed
  obtain ⟨hplb, hplk⟩ := placed_pop (by omega) hpl
  have hkid' : ∀ i X, rhs[i]? = some X → agree id id (fieldOf X)
      ((fun i => (sg.cur[l'.length + 1 + i - 1]?).getD {}) (i + 1))
      (dollars (Tree.placedList (topOf ts') (ts'.length + 1) kids.reverse) (i + 1)) := by
    intro i X hi
    have hlt : i < rhs.length := (List.getElem?_eq_some_iff.1 hi).1
    have hrev : rhs.reverse[rhs.length - 1 - i]? = some X := by
      rw [List.getElem?_reverse (by omega), show rhs.length - 1 - (rhs.length - 1 - i) = i by omega]; exact hi
    obtain ⟨e', t, h1, h2, h3⟩ := pop.agree _ X hrev
    have e1 : sg.cur[l'.length + 1 + (i + 1) - 1]? = some e' := by
      rw [show l'.length + 1 + (i + 1) - 1 = l'.length + 1 + i by omega, hget i hlt, h1]
    have hsX : sym e'.yys = symInt X := by
      have h4 := congrArg (fun l => l[rhs.length - 1 - i]?) pop.syms
      simp only [List.getElem?_map, h1, hrev, Option.map_some, Option.some.injEq] at h4
      exact h4
    obtain ⟨v, hv, ha⟩ := hplk _ e' h1 X (ruleOf_symOk hr.rule X (List.mem_of_getElem? hi)) hsX
    rw [hklen, show rhs.length - 1 - (rhs.length - 1 - i) = i by omega] at hv
    simp only [dollars, Nat.add_sub_cancel]
    rw [e1, hv]
    exact ha
  have hmem' : MemOk s' ⟨topOf (kids ++ ts'), writesOf (kids ++ ts')⟩ := by
    rw [← pop.trees]; exact MemOk.congr (s := s) h.mem.ok hfr.2.1 hfr.2.2.1
  have hlecur : ts'.length + 1 ≤ s'.cur.length := by have := hview.le; omega
  have hgen : sg.old.length = doublings (max (topOf ts') (max (ts'.length + 1) (Tree.peakList (ts'.length + 1) kids.reverse))) := by
    rw [← hgs, show s'.depth - rhs.length = ts'.length + 1 by omega, grow_old hmem' hlecur, topOf_append]
    congr 1
    simp only
    omega
  have hder : Derives (.n lhs) toks (.node r kids.reverse) := by
    refine .node _ _ _ _ _ hr.pos hr.rule ?_
    simpa using pop.der
  generalize hdd : (fun i => (sg.cur[l'.length + 1 + i - 1]?).getD ({} : RawSym)) = dd at hkid hkid'
  have hv1 : rhs ≠ [] → v = dd 1 := by
    intro _
    rw [← hdd]
    simp [hv]
  have hhead : rhs ≠ [] → (kids.reverse.map eval0).headD {} = dollars (kids.reverse.map eval0) 1 := by
    intro hne
    have : (kids.reverse.map eval0) ≠ [] := by
      intro h0
      have := congrArg List.length h0
      simp at this
      rw [this] at hklen
      exact hne (List.length_eq_zero_iff.1 (by simpa using hklen.symm))
    obtain ⟨a, l, hal⟩ := List.exists_cons_of_ne_nil this
    rw [hal]; rfl
  have hr291 : r ≤ 291 := ruleOf_le hr.rule
  have hhead' : rhs ≠ [] → (Tree.placedList (topOf ts') (ts'.length + 1) kids.reverse).headD {} =
      dollars (Tree.placedList (topOf ts') (ts'.length + 1) kids.reverse) 1 := by
    intro hne
    have : Tree.placedList (topOf ts') (ts'.length + 1) kids.reverse ≠ [] := by
      intro h0
      have h0 := congrArg List.length h0
      rw [placedList_length, List.length_reverse, hklen] at h0
      exact hne (List.length_eq_zero_iff.1 (by simpa using h0))
    obtain ⟨a, l, hal⟩ := List.exists_cons_of_ne_nil this
    rw [hal]; rfl
  have hexact : agree id id (fieldOf (.n lhs)) (action r
      { value3 := ⟨sg.old.length, l'.length + 1 + 2⟩, defined2 := .slot ⟨sg.old.length, l'.length + 1 + 1⟩, copy := .copy } dd v)
      (Tree.placed (topOf ts') (ts'.length + 1) (.node r kids.reverse)) := by
    rw [Tree.placed]
    exact ruleAgree id id r hr.pos hr291 lhs rhs hr.rule _ _ dd _ v _ (fun _ => by simp only [hgen, hts', id])
      (fun _ => by simp only [hgen, hts', id]) (fun _ => rfl) hkid' (fun hne => ⟨hv1 hne, hhead' hne⟩)
  refine ⟨_, _, es, b, l', kids, ts', g, rfl, pop.stack, hlen, pop.trees, hklen, hg, ?_, ?_, ?_, ?_, ?_,
    ⟨push_view (st := b :: l') ⟨hbview.take, hbview.le, hbview.pos⟩,
    pop.tokens ▸ .cons _ _ _ _ _ _ _ (.n lhs) pop.stk hg1 hg3 (ruleOf_lhs hr.rule) hg2 hder ?_, ?_, ?_, ?_, ?_, ?_,
    by rw [(push_fields _).1]; show Hist text fin sg.lexer; rw [hgf.1]; exact hf.hist h.hist, ?_, ?_⟩, ?_⟩
  · rfl
  · rw [(push_fields _).1]; exact hgf.1
  · rw [(push_fields _).2.2.1]; exact hgf.2.1
  · rw [(push_fields _).2.2.2.1]; exact hgf.2.2.1
  · rw [(push_fields _).2.2.2.2.1]; exact hgf.2.2.2.1
  · rw [show eval0 (.node r kids.reverse) = _ from eval_node _ _ _]
    have := ruleAgree knownRef noSlot r hr.pos hr291 lhs rhs hr.rule
      { value3 := ⟨sg.old.length, l'.length + 1 + 2⟩, defined2 := .slot ⟨sg.old.length, l'.length + 1 + 1⟩, copy := .copy }
      (erased (dollars (kids.reverse.map eval0))) dd (dollars (kids.reverse.map eval0)) v ((kids.reverse.map eval0).headD {})
      (fun _ => rfl) (fun _ => rfl) (fun _ => rfl) hkid (fun hne => ⟨hv1 hne, hhead hne⟩)
    exact agree_yys.2 this
  · simp [(push_fields _).2.2.2.2.2.1]
  · rw [(push_fields _).2.2.2.2.2.2]
    show sg.errflag = 0
    rw [hgf.2.2.2.2.1, hfr.2.2.2.2.2.2.1, h.errflag]
  · unfold TokOk
    rw [(push_fields _).2.2.2.1, (push_fields _).2.2.2.2.1]
    show sg.char < 0 ∨ _
    rw [hgf.2.2.1]
    simp only [hgf.2.2.2.1]
    exact ht
  · have := hlex
    have e1 : ∀ (s2 : PState), s2.lexer = s'.lexer → s2.char = s'.char → s2.lval = s'.lval →
        LexInv u text s2 done := by
      intro s2 h1 h2 h3
      cases this with
      | failed a b => exact .failed (by rw [h1]; exact a) (by rw [h2, h3]; exact b)
      | ready a b => exact .ready (by rw [h2]; exact a) (by rw [h1]; exact b)
      | pending p l a b c d => exact .pending p l (by rw [h2]; exact a) (by rw [h2]; exact b) (by rw [h3]; exact c) (by rw [h1, h2]; exact d)
      | eof a b c => exact .eof (by rw [h2]; exact a) b (by rw [h1]; exact c)
    exact e1 _ (by rw [(push_fields _).1]; exact hgf.1) (by rw [(push_fields _).2.2.2.1]; exact hgf.2.2.1)
      (by rw [(push_fields _).2.2.1]; exact hgf.2.1)
  · intro h1
    rw [(push_fields _).2.2.2.2.2.1] at h1
    have hr1 : r = 1 := hg5 h1
    subst hr1
    refine ⟨moduleOf dd, kids.reverse, ts', rfl, ?_, ?_, ?_⟩
    · rw [(push_fields _).2.1]
      simp only [if_true]
    · have hrule := hr.rule
      cases hrule
      have k1 := hkid 0 _ rfl
      have k3 := hkid 2 _ rfl
      have k4 := hkid 3 _ rfl
      have k7 := hkid 6 _ rfl
      have k1 : (dd 1).moduleIdentifier = _ := k1
      have k3 : (dd 3).tagDefault = _ := k3
      have k4 : (dd 4).extensionDefault = _ := k4
      have k7 : (dd 7).moduleBody.map knownRef noSlot = _ := k7
      simp only [moduleOf, ModuleDefinition.map, k1, k3, k4, k7]
    · have hrule := hr.rule
      cases hrule
      have k1 : (dd 1).moduleIdentifier = _ := hkid' 0 _ rfl
      have k3 : (dd 3).tagDefault = _ := hkid' 2 _ rfl
      have k4 : (dd 4).extensionDefault = _ := hkid' 3 _ rfl
      have k7 : (dd 7).moduleBody.map id id = _ := hkid' 6 _ rfl
      simp only [moduleOf, ModuleDefinition.map, k1, k3, k4, k7]
  · rw [← hgs] at hv ⊢
    rw [show s'.depth - rhs.length = ts'.length + 1 by omega] at hv ⊢
    rw [hts'] at hv ⊢
    refine reduce_mem hmem' hview.pos hlecur hr.pos hr.rule hv ?_
    rw [hts', ← hgs, show s'.depth - rhs.length = ts'.length + 1 by omega] at hexact
    exact hexact
  · refine ⟨?_, hplb⟩
    intro X hX hsX
    have : X = .n lhs := symInt_inj hX (ruleOf_lhs hr.rule) (hsX.symm.trans hg2)
    subst this
    exact agree_yys.2 hexact
  · unfold measure
    have e1 : ∀ (s2 : PState), s2.lexer = s'.lexer → s2.char = s'.char → pending s2 = pending s' := by
      intro s2 h1 h2; unfold pending; rw [h1, h2]
    rw [e1 _ (by rw [(push_fields _).1]; exact hgf.1) (by rw [(push_fields _).2.2.2.1]; exact hgf.2.2.1)]
    rw [potential_eq, potential_eq, List.dropLast_cons_of_ne_nil (by simp), pop.stack, htop]
    have e2 : (es ++ b :: l').dropLast = es ++ (b :: l').dropLast := by
      rw [List.dropLast_append_of_ne_nil (by simp)]
    rw [e2, sum_append_map]
    have e3 : (es.map (fun e => weight (sym e.yys))).sum = ((rhs.map symInt).map weight).sum := by
      have h1 : es.map (fun e => weight (sym e.yys)) = (es.map (fun e => sym e.yys)).map weight := by
        rw [List.map_map]; rfl
      rw [h1, pop.syms, List.map_reverse, List.map_reverse, List.sum_reverse]
    rw [e3]
    simp only [List.map_cons, List.sum_cons, hg2]
    omega

theorem recoverGo_none {st : List RawSym} {cur : List RawSym} (hlt : ∀ i e, cur[i]? = some e → i < st.length → e.yys < 432)
    : ∀ d, d ≤ st.length → d ≤ cur.length → recoverGo cur d = .ok none
  | 0, _, _ => rfl
  | d + 1, h1, h2 => by
    unfold recoverGo
    rw [List.getElem?_eq_getElem (by omega : d < cur.length)]
    simp only
    have hl := hlt d _ (List.getElem?_eq_getElem (by omega : d < cur.length)) (by omega)
    obtain ⟨n, hn, hc⟩ := noErrorShift hl
    rw [hn, ok_bind]
    have ih := recoverGo_none hlt d (by omega) (by omega)
    split
    · rename_i hcond
      obtain ⟨a, c, ha, hch, hne⟩ := hc hcond
      rw [ha, ok_bind, hch, ok_bind, if_neg hne]
      exact ih
    · exact ih

theorem Stk.all_lt : ∀ {st : List RawSym} {ts : List Tree} {done : List Token}, Stk st ts done → ∀ e ∈ st, e.yys < 432 := by
  intro st ts done h
  induction h with
  | base e h => intro x hx; simp at hx; subst hx; omega
  | cons e p l t ts done toks X _ h1 _ _ _ _ _ ih =>
    intro x hx
    simp only [List.mem_cons] at hx
    rcases hx with rfl | hx
    · exact h1
    · exact ih x (by simpa using hx)

/-- How a run ends: by accepting with the whole text derived, or by an error. -/
inductive Final (u : Unicode) (text : Str) (fin : ReadEnd) : Int → PState → Prop
  | accept (s : PState) (t : Tree) (kids : List Tree) (toks : List Token) (m : ModuleDefinition RefPtr Slot) :
      t = .node 1 kids → Derives (.n NT.ModuleDefinition) toks t → s.result = some m →
      m.map knownRef noSlot = t.module erased → m.map s.derefRef s.derefValue = t.exact →
      (s.lexer.err = none → Tokens u false text toks ∧ fin = .eof) → Hist text fin s.lexer → Final u text fin 0 s
  | error (s : PState) : s.lexer.err ≠ none → Hist text fin s.lexer → Final u text fin 1 s

theorem preds_one : preds 1 = [0] := by decide +kernel
theorem preds_zero : preds 0 = [] := by decide +kernel
theorem sym_one : sym 1 = symInt (.n NT.ModuleDefinition) := by decide +kernel

/-- An error ends the run: no state of the automaton has a transition by `error`. -/
theorem error_ret {u : Unicode} {text : Str} {fin : ReadEnd} {s s' : PState} {st : List RawSym} {ts : List Tree} {done : List Token}
    (h : Inv u text fin s st ts done) (hf : Fetched u s s') :
    ∃ s'', errorStep s' = .ok (.ret 1 s'') ∧ s''.lexer.err ≠ none ∧ Hist text fin s''.lexer := by
  unfold errorStep
  have hfr := hf.frame
  have he : s'.errflag = 0 := by rw [hfr.2.2.2.2.2.2.1]; exact h.errflag
  simp only [he]
  rw [if_neg (by omega)]
  simp only [if_true]
  have hv := h.view
  have hrec : recoverGo s'.cur s'.depth = .ok none := by
    refine recoverGo_none (st := st) ?_ _ ?_ ?_
    · intro i e hi hlt
      rw [hfr.2.2.1, hv.get (by rw [← hv.len]; exact hlt)] at hi
      exact h.stk.all_lt e (List.mem_of_getElem? hi)
    · rw [hfr.2.2.2.1, hv.len]; exact Nat.le_refl _
    · rw [hfr.2.2.2.1, hfr.2.2.1]; exact hv.le
  rw [hrec, ok_bind]
  exact ⟨_, rfl, by simp [LexState.error], (hf.hist h.hist).error _⟩

theorem step_ok {u : Unicode} {text : Str} {fin : ReadEnd} {s : PState} {st : List RawSym} {ts : List Tree} {done : List Token}
    (h1' : Inv u text fin s st ts done) :
    (step u s = .error .hang ∧ ∃ s', Fetched u s s' ∧ lex u s'.lexer s'.lval = none) ∨
    (∃ c s', step u s = .ok (.ret c s') ∧ Final u text fin c s') ∨
    (∃ s' st' ts' done', step u s = .ok (.next s') ∧ Inv u text fin s' st' ts' done' ∧ measure s' st' < measure s st) := by
  have h := h1'
  unfold step
  rcases decideStep_ok u s h.lt h.tok with ⟨hd, s', hf, _, hl⟩ | ⟨d, s', hd, hdec⟩
  · left; rw [hd]; exact ⟨rfl, s', hf, hl⟩
  · right
    rw [hd, ok_bind]
    simp only
    cases hdec with
    | shift s' n hf ht hs =>
      right
      obtain ⟨e, p, _, h1, h2⟩ := shift_inv h hf ht hs
      exact ⟨_, _, _, _, rfl, h1, h2⟩
    | reduce s' r lhs rhs B hf hr ht =>
      right
      obtain ⟨s2, e, es, b, l, kids, ts', g, h0, _, _, _, _, _, _, _, _, _, _, h1, h2⟩ := reduce_inv h hf ht hr
      exact ⟨s2, _, _, _, by simp only; rw [h0]; rfl, h1, h2⟩
    | accept s' hf ht hs htok hneg =>
      left
      refine ⟨0, s', rfl, ?_⟩
      obtain ⟨m, kids, ts', rfl, hres, hm, hx⟩ := h.result hs
      have hstk := h.stk
      have htop := h.top
      cases hstk with
      | cons e p l t ts done toks X hp h1 h2 h3 h4 h5 h6 =>
        have he : e.yys = 1 := by rw [← hs]; simpa using htop
        rw [he, preds_one] at h2
        rw [he, sym_one] at h4
        have hX := symInt_inj (by decide) h3 h4
        subst hX
        cases hp with
        | cons _ q _ _ _ _ _ _ _ _ hq =>
          simp at h2
          rw [h2, preds_zero] at hq
          simp at hq
        | base =>
          refine .accept s' _ kids toks m rfl h5 (by rw [hf.frame.1]; exact hres) ?_ ?_ ?_ (hf.hist h.hist)
          · rw [hm, Tree.module, evalList_eq]
          · exact exact_of_mem (MemOk.congr (s := s) h.mem.ok hf.frame.2.1 hf.frame.2.2.1) hx
          · intro he
            have := hf.lexInv h.lex
            simp only [List.nil_append] at this
            have hc : s'.char ≤ 0 := by
              rcases ht with ht | ht
              · exact ht.1
              · omega
            cases this with
            | failed h => exact absurd he h
            | ready hc' h =>
              rcases hneg with hneg | hneg
              · omega
              · exact absurd he hneg
            | pending _ _ h => omega
            | eof _ h hfin => exact ⟨h, (hf.hist h1'.hist).fin.symm.trans hfin⟩
    | error s' hf =>
      left
      obtain ⟨s'', he, h1, h2⟩ := error_ret h hf
      exact ⟨1, s'', he, .error _ h1 h2⟩

/-- A run that has enough fuel ends as `Final` says, or in a call of `Lex` that does not return. -/
theorem run_ok {u : Unicode} {text : Str} {fin : ReadEnd} : ∀ (fuel : Nat) {s : PState} {st : List RawSym} {ts : List Tree} {done : List Token},
    Inv u text fin s st ts done → measure s st < fuel →
    (runSteps u fuel s = .abort .hang ∧ fin = .fail) ∨ ∃ c s', runSteps u fuel s = .ret c s' ∧ Final u text fin c s'
  | 0, s, st, ts, done, _, h => by omega
  | fuel + 1, s, st, ts, done, h, hm => by
    unfold runSteps
    rcases step_ok h with ⟨he, s', hf, hl⟩ | ⟨c, s', he, hfin⟩ | ⟨s', st', ts', done', he, hi, hlt⟩
    · rw [he]
      left
      refine ⟨rfl, ?_⟩
      cases hfin : fin with
      | fail => rfl
      | eof =>
        have := lex_total (u := u) (lval := s'.lval) ((hf.hist h.hist).fin.trans hfin)
        rw [hl] at this
        cases this
    · rw [he]; exact Or.inr ⟨c, s', rfl, hfin⟩
    · rw [he]; exact run_ok fuel hi (by omega)

theorem init_inv (u : Unicode) (text : Str) (fin : ReadEnd) :
    ∃ st, Inv u text fin (PState.init (LexState.init text fin)) st [] [] ∧
      measure (PState.init (LexState.init text fin)) st < fuelFor text.length := by
  refine ⟨[{ ({} : RawSym) with yys := 0 }], ⟨?_, .base _ rfl, rfl, rfl, ?_, ?_, ?_, ?_, init_mem _, trivial⟩, ?_⟩
  · exact push_view (s := { lexer := LexState.init text fin, cur := List.replicate yyInitialStackSize {} }) (st := [])
      ⟨rfl, by simp, by simp [yyInitialStackSize]⟩
  · left; show (-1 : Int) < 0; omega
  · refine .ready (by show (-1 : Int) < 0; omega) ?_
    intro toks h; exact h
  · intro h; exact absurd h (by show ¬ (0 = 1); omega)
  · exact Hist.init text fin
  · unfold measure fuelFor
    have h1 : potential [{ ({} : RawSym) with yys := 0 }] ≤ 16 := by
      rw [potential_eq]
      have := rank_le (s := 0) (by omega)
      simp; omega
    have h2 : pending (PState.init (LexState.init text fin)) = text.length := by
      unfold pending
      rw [if_neg (by show ¬ (0 : Int) < -1; omega)]; rfl
    omega

/-- How every run of the parser ends. -/
theorem yyParse_ok (u : Unicode) (text : Str) (fin : ReadEnd) :
    (yyParse u (LexState.init text fin) = .abort .hang ∧ fin = .fail) ∨
      ∃ c s, yyParse u (LexState.init text fin) = .ret c s ∧ Final u text fin c s := by
  obtain ⟨st, h, hm⟩ := init_inv u text fin
  exact run_ok _ h hm

end Asn1go.LR
