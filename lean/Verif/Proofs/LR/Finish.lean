import Verif.Proofs.LR.Complete
import Verif.Proofs.LR.FinishCert

/-! Every stack the parser can have can be finished: there are tokens with which the machine goes on to accept. -/

namespace Asn1go.LR

open Asn1go Spec

/-- What the tables can say. -/
inductive ActOk (s : Nat) (t : Int) : Decision → Prop
  | shift (n : Nat) : ShiftOk s n t → ActOk s t (.shift n)
  | reduce (r lhs : Nat) (rhs : List Sym) (B : List Nat) : ReduceOk s r lhs rhs B → ActOk s t (.reduce r)
  | accept : s = 1 → ActOk s t .accept
  | error : ActOk s t .error

theorem act_ok {s : Nat} (hs : s < 432) {t : Int} (h1 : 1 ≤ t) (h2 : t ≤ 128) : ∃ d, act s t = .ok d ∧ ActOk s t d := by
  obtain ⟨o, ho, hsh⟩ := shiftOk hs h1 h2
  unfold act
  rw [ho, ok_bind]
  cases o with
  | some n => exact ⟨_, rfl, .shift n (hsh n rfl)⟩
  | none =>
    obtain ⟨n, hn, hr⟩ := yyDef_ok hs
    obtain ⟨l, hl, hd⟩ := reduceOk hs
    simp only
    rw [hn, ok_bind]
    unfold defaultsOf at hl
    rw [hn, ok_bind] at hl
    split
    · rename_i h2
      rw [if_pos h2, bind_ok] at hl
      obtain ⟨l', hl', hv⟩ := hl
      rw [hl', ok_bind]
      obtain ⟨m, hm⟩ := excaScan_ok (t := t) hv
      rw [hm]
      refine ⟨_, rfl, ?_⟩
      have hmem := excaScan_mem hv hm
      unfold defaultDecision
      split
      · next hlt => exact .accept ((hd m hmem).1 hlt)
      · split
        · exact .error
        · obtain ⟨lhs, rhs, B, h⟩ := (hd m hmem).2 (by omega)
          exact .reduce _ _ _ _ h
    · rename_i h2
      rw [if_neg h2] at hl
      cases hl
      refine ⟨_, rfl, ?_⟩
      split
      · exact .error
      · obtain ⟨lhs, rhs, B, h⟩ := (hd n (by simp)).2 (by omega)
        exact .reduce _ _ _ _ h

/-- Stacks whose states can follow each other. -/
inductive Path : List Nat → Prop
  | base : Path [0]
  | cons (s p : Nat) (l : List Nat) : Path (p :: l) → s < 432 → p ∈ preds s → Path (s :: p :: l)

theorem Path.lt {s : Nat} {l : List Nat} (h : Path (s :: l)) : s < 432 := by
  cases h with
  | base => omega
  | cons _ _ _ _ h => exact h

/-- Popping what a walk passes. -/
theorem path_walk : ∀ {rev : List Sym} {S B : List Nat} {s : Nat} {l : List Nat}, walk (rev.map symInt) S = some B →
    (∀ X ∈ rev, symOk X) → s ∈ S → Path (s :: l) → ∃ b l', (s :: l).drop rev.length = b :: l' ∧ b ∈ B ∧ Path (b :: l') := by
  intro rev
  induction rev with
  | nil =>
    intro S B s l h _ hs hp
    simp only [List.map_nil, walk, Option.some.injEq] at h
    subst h
    exact ⟨s, l, rfl, hs, hp⟩
  | cons X rev ih =>
    intro S B s l h hX hs hp
    simp only [List.map_cons, walk] at h
    split at h
    · rename_i hall
      have hsym : sym s = symInt X := by simpa using List.all_eq_true.1 hall s hs
      cases hp with
      | base =>
        rw [sym_zero] at hsym
        exact absurd hsym.symm (symInt_ne (hX X (by simp)))
      | cons _ p l hp _ hpred =>
        obtain ⟨b, l', h1, h2, h3⟩ := ih h (fun X hx => hX X (by simp [hx]))
          (by rw [List.mem_eraseDups]; exact List.mem_flatMap.2 ⟨_, hs, hpred⟩) hp
        exact ⟨b, l', by simpa using h1, h2, h3⟩
    · cases h

/-- What a reduction does to the stack. -/
theorem path_reduce {s r lhs : Nat} {rhs : List Sym} {B l : List Nat} (h : ReduceOk s r lhs rhs B) (hp : Path (s :: l)) :
    ∃ b l' g, (s :: l).drop rhs.length = b :: l' ∧ b ∈ B ∧ gotoState lhs b = .ok g ∧ Path (g :: b :: l') := by
  have hw := h.walk
  rw [← List.map_reverse] at hw
  obtain ⟨b, l', h1, h2, h3⟩ := path_walk hw (fun X hX => ruleOf_symOk h.rule X (List.mem_reverse.1 hX)) (by simp) hp
  obtain ⟨g, k1, k2, _, k4, _⟩ := h.goto b h2
  exact ⟨b, l', g, by simpa using h1, h2, k1, .cons _ _ _ h3 k2 k4⟩

theorem okToks_first {R : List Token} (h : OkToks R) : 1 ≤ tokNo (firstCode 0 R) ∧ tokNo (firstCode 0 R) ≤ 128 := by
  obtain ⟨h1, h2, h3⟩ := codeBit_pos' h
  omega

/-- A round keeps the stack a path and the trees matching. -/
theorem path_step {c c' : Conf} (hp : Path c.states) (hR : OkToks c.rest) (hl : c.states.length = c.trees.length + 1)
    (h : astep c = .next c') : Path c'.states ∧ OkToks c'.rest ∧ c'.states.length = c'.trees.length + 1 := by
  obtain ⟨ss, ts, R⟩ := c
  simp only at hp hR hl
  cases ss with
  | nil => cases hp
  | cons s l =>
    obtain ⟨d, hd, hok⟩ := act_ok hp.lt (okToks_first hR).1 (okToks_first hR).2
    unfold astep at h
    simp only [hd] at h
    cases hok with
    | shift n hs =>
      simp only at h
      split at h
      · cases h
      · cases h
        exact ⟨.cons _ _ _ hp hs.lt hs.pred, fun x hx => hR x (by simp [hx]), by simp at hl ⊢; omega⟩
    | reduce r lhs rhs B hr =>
      obtain ⟨b, l', g, h1, _, h3, h4⟩ := path_reduce hr hp
      simp only [hr.rule, h1, h3] at h
      cases h
      refine ⟨h4, hR, ?_⟩
      have := congrArg List.length h1
      simp at this hl ⊢
      omega
    | accept => cases h
    | error => cases h

theorem path_reach {c c' : Conf} (h : Reach c c') (hp : Path c.states) (hR : OkToks c.rest) (hl : c.states.length = c.trees.length + 1) :
    Path c'.states ∧ OkToks c'.rest ∧ c'.states.length = c'.trees.length + 1 := by
  induction h with
  | refl => exact ⟨hp, hR, hl⟩
  | tail _ h ih => exact path_step ih.1 ih.2.1 ih.2.2 h

/-- States that can stand `k` below a state of the list. -/
def predsN : Nat → List Nat → List Nat
  | 0, S => S
  | k + 1, S => predsN k (S.flatMap preds).eraseDups

theorem path_predsN : ∀ {k : Nat} {S : List Nat} {s b : Nat} {l l' : List Nat}, Path (s :: l) → s ∈ S → (s :: l).drop k = b :: l' →
    b ∈ predsN k S ∧ Path (b :: l')
  | 0, S, s, b, l, l', hp, hs, h => by cases h; exact ⟨hs, hp⟩
  | k + 1, S, s, b, l, l', hp, hs, h => by
    cases hp with
    | base => simp at h
    | cons _ p l hp _ hpred =>
      have hm : p ∈ (S.flatMap preds).eraseDups := by rw [List.mem_eraseDups]; exact List.mem_flatMap.2 ⟨_, hs, hpred⟩
      exact path_predsN (k := k) (S := (S.flatMap preds).eraseDups) hp hm (by simpa using h)

/-- The stack goes deeper than places where the first state cannot stand. -/
theorem path_deep : ∀ {k : Nat} {S : List Nat} {s : Nat} {l : List Nat}, Path (s :: l) → s ∈ S →
    (∀ j < k, 0 ∉ predsN j S) → ∃ b l', (s :: l).drop k = b :: l'
  | 0, _, s, l, _, _, _ => ⟨s, l, rfl⟩
  | k + 1, S, s, l, hp, hs, h => by
    cases hp with
    | base => exact absurd hs (h 0 (by omega))
    | cons _ p l hp _ hpred =>
      have hm : p ∈ (S.flatMap preds).eraseDups := by rw [List.mem_eraseDups]; exact List.mem_flatMap.2 ⟨_, hs, hpred⟩
      obtain ⟨b, l', h'⟩ := path_deep (k := k) hp hm (fun j hj => h (j + 1) (by omega))
      exact ⟨b, l', by simpa using h'⟩

/-- The machine on the states above a place in the stack, until a reduction reaches below: the rule, and how many
entries it pops below the place, that place included. -/
def simLoc : Nat → List Nat → List Nat → Nat → Option (Nat × Nat)
  | 0, _, _, _ => none
  | _, [], _, _ => none
  | f + 1, s :: loc, w, la =>
    match act s (w.headD la : Nat) with
    | .ok (.shift n) =>
      match w with
      | [] => none
      | _ :: w => simLoc f (n :: s :: loc) w la
    | .ok (.reduce r) =>
      match ruleOf r with
      | none => none
      | some (lhs, rhs) =>
        if (s :: loc).length ≤ rhs.length then
          match w with
          | [] => some (r, rhs.length - (s :: loc).length + 1)
          | _ :: _ => none
        else
          match (s :: loc).drop rhs.length with
          | [] => none
          | b :: l =>
            match gotoState lhs b with
            | .error _ => none
            | .ok g => simLoc f (g :: b :: l) w la
    | _ => none

theorem first_head {W R : List Token} {w : List Nat} (hW : W.map (fun x => codeBit x.1) = w) :
    codeBit (firstCode 0 (W ++ R)) = w.headD (codeBit (firstCode 0 R)) := by
  subst hW
  cases W <;> rfl

theorem tokNo_bit {R : List Token} (h : OkToks R) : tokNo (firstCode 0 R) = (codeBit (firstCode 0 R) : Nat) := by
  obtain ⟨h1, h2, h3⟩ := codeBit_pos' h
  omega

theorem okToks_append {a b : List Token} : OkToks (a ++ b) ↔ OkToks a ∧ OkToks b := by
  unfold OkToks
  constructor
  · intro h; exact ⟨fun x hx => h x (by simp [hx]), fun x hx => h x (by simp [hx])⟩
  · rintro ⟨h1, h2⟩ x hx
    rcases List.mem_append.1 hx with hx | hx
    · exact h1 x hx
    · exact h2 x hx

/-- The machine does what `simLoc` says. -/
theorem sim_run : ∀ {f : Nat} {loc w : List Nat} {la r k : Nat}, simLoc f loc w la = some (r, k) →
    ∀ (σ : List Nat) (ts : List Tree) (W R : List Token), W.map (fun x => codeBit x.1) = w → OkToks (W ++ R) →
      codeBit (firstCode 0 R) = la →
      ∃ s2 loc2 ts2 lhs rhs, Reach ⟨loc ++ σ, ts, W ++ R⟩ ⟨s2 :: loc2 ++ σ, ts2, R⟩ ∧ act s2 (la : Nat) = .ok (.reduce r) ∧
        ruleOf r = some (lhs, rhs) ∧ (s2 :: loc2).length ≤ rhs.length ∧ k = rhs.length - (s2 :: loc2).length + 1
  | 0, _, _, _, _, _, h => by simp [simLoc] at h
  | f + 1, [], _, _, _, _, h => by simp [simLoc] at h
  | f + 1, s :: loc, w, la, r, k, h => by
    intro σ ts W R hW hok hla
    have hhd := first_head (R := R) hW
    rw [hla] at hhd
    have hact : act s (tokNo (firstCode 0 (W ++ R))) = act s (w.headD la : Nat) := by
      rw [tokNo_bit hok, hhd]
    simp only [simLoc] at h
    split at h
    · next n ha =>
      rw [ha] at hact
      cases W with
      | nil => simp at hW; subst hW; simp at h
      | cons x W =>
        simp only [List.map_cons] at hW
        subst hW
        simp only at h
        obtain ⟨s2, loc2, ts2, lhs, rhs, h1, h2⟩ := sim_run h σ (.leaf x.1 x.2 :: ts) W R rfl
          (fun y hy => hok y (List.mem_cons_of_mem _ hy)) hla
        refine ⟨s2, loc2, ts2, lhs, rhs, .head ?_ h1, h2⟩
        unfold astep
        simp only [List.cons_append] at hact ⊢
        rw [hact]
    · next r' ha =>
      rw [ha] at hact
      split at h
      · cases h
      · next lhs rhs hrule =>
        split at h
        · next hle =>
          split at h
          · cases h
            have : W = [] := by cases W <;> simp at hW ⊢
            subst this
            exact ⟨s, loc, ts, lhs, rhs, .refl, by simpa using ha, hrule, hle, rfl⟩
          · cases h
        · next hgt =>
          split at h
          · cases h
          · next b l hdrop =>
            split at h
            · cases h
            · next g hg =>
              obtain ⟨s2, loc2, ts2, lhs', rhs', h1, h2⟩ := sim_run h σ
                (.node r' (ts.take rhs.length).reverse :: ts.drop rhs.length) W R hW hok hla
              refine ⟨s2, loc2, ts2, lhs', rhs', .head ?_ h1, h2⟩
              unfold astep
              simp only [List.cons_append] at hact ⊢
              rw [hact]
              simp only [hrule]
              have : List.drop rhs.length (s :: (loc ++ σ)) = b :: (l ++ σ) := by
                have e : s :: (loc ++ σ) = (s :: loc) ++ σ := rfl
                rw [e, List.drop_append_of_le_length (by omega), hdrop]
                rfl
              rw [this]
              simp only [hg]
    · cases h

/-- Parts of the certificate. -/
def finRule (s : Nat) : Nat := (finishT.get s).1
def finPop (s : Nat) : Nat := (finishT.get s).2.1
def finWord (s : Nat) : List Nat := (finishT.get s).2.2.1
def finAhead (s : Nat) : Nat := (finishT.get s).2.2.2.1
def finRank (s : Nat) : Nat := (finishT.get s).2.2.2.2

/-- The token used for a token number when going on. -/
def plainToken (t : Nat) : Token :=
  let c : Int := (t : Int) + 57342
  (c, if c = Tok.TYPEORMODULEREFERENCE then .name (c! "A") else if c = Tok.VALUEIDENTIFIER then .name (c! "a")
    else if c = Tok.NUMBER then .number (c! "0") 0 else .none)

/-- Where the reduction goes. -/
def finTops (s lhs : Nat) : List (Option Nat) :=
  ((predsN (finPop s) [s]).map fun b => match gotoState lhs b with | .ok g => some g | .error _ => none).eraseDups

/-- The tokens that can be ahead then. -/
def finMask (s lhs : Nat) : Nat := (finTops s lhs).foldr (fun g m => match g with | some g => finAhead g ||| m | none => m) 0

/-- Check of the certificate for a state. -/
def finCheck (s : Nat) : Bool :=
  match ruleOf (finRule s) with
  | none => false
  | some (lhs, _) =>
    ((predsN (finPop s) [s]).all fun b => match gotoState lhs b with
      | .ok g => g < 432 && (preds g).contains b
      | .error _ => false) &&
    (List.range (finPop s)).all (fun j => !(predsN j [s]).contains 0) &&
    1 ≤ finPop s && finRank s < 32 && (finWord s).all (fun t => 4 ≤ t && t ≤ 128) &&
    (match finWord s with
      | [] => sub (finMask s lhs) (finAhead s)
      | t :: _ => (finAhead s).testBit t) &&
    ((finTops s lhs).all fun g => match g with
      | none => false
      | some g => 0 < g && (2 ≤ finPop s || finRank g < finRank s)) &&
    (List.range 129).all fun t => !(finMask s lhs).testBit t || simLoc 40 [s] (finWord s) t == some (finRule s, finPop s)

theorem finChecks : (List.range 430).all (fun i => finCheck (i + 2)) = true := by decide +kernel

theorem finRanks : (List.range 432).all (fun i => decide (finRank i < 32)) = true := by decide +kernel

theorem finAhead_one : (finAhead 1).testBit 1 = true := by decide +kernel

theorem foldr_mask {g : Nat} {t : Nat} : ∀ {l : List (Option Nat)}, some g ∈ l → (finAhead g).testBit t = true →
    (l.foldr (fun g m => match g with | some g => finAhead g ||| m | none => m) 0).testBit t = true
  | [], h, _ => by simp at h
  | x :: l, h, ht => by
    simp only [List.foldr_cons]
    rcases List.mem_cons.1 h with h | h
    · subst h
      simp [Nat.testBit_or, ht]
    · have := foldr_mask h ht
      cases x with
      | none => exact this
      | some y => simp only [Nat.testBit_or, this, Bool.or_true]

/-- What the check gives. -/
structure FinOk (s lhs : Nat) : Prop where
  rule : ∃ rhs, ruleOf (finRule s) = some (lhs, rhs)
  deep : ∀ j < finPop s, 0 ∉ predsN j [s]
  pop : 1 ≤ finPop s
  word : ∀ t ∈ finWord s, 4 ≤ t ∧ t ≤ 128
  first : ∀ t w, finWord s = t :: w → (finAhead s).testBit t = true
  goto : ∀ b ∈ predsN (finPop s) [s], ∃ g, gotoState lhs b = .ok g ∧ 0 < g ∧ g < 432 ∧ b ∈ preds g ∧ (2 ≤ finPop s ∨ finRank g < finRank s) ∧
    ∀ t < 129, (finAhead g).testBit t = true → simLoc 40 [s] (finWord s) t = some (finRule s, finPop s) ∧
      (finWord s = [] → (finAhead s).testBit t = true)

theorem fin_ok {s : Nat} (h2 : 2 ≤ s) (hs : s < 432) : ∃ lhs, FinOk s lhs := by
  have h := List.all_eq_true.1 finChecks (s - 2) (List.mem_range.2 (by omega))
  simp only [show s - 2 + 2 = s by omega] at h
  unfold finCheck at h
  split at h
  · cases h
  · next lhs rhs hrule =>
    simp only [Bool.and_eq_true, decide_eq_true_eq] at h
    obtain ⟨⟨⟨⟨⟨⟨⟨h7, h0⟩, h1⟩, _⟩, h3⟩, h4⟩, h5⟩, h6⟩ := h
    refine ⟨lhs, ⟨rhs, hrule⟩, ?_, h1, ?_, ?_, ?_⟩
    · intro j hj
      have := List.all_eq_true.1 h0 j (List.mem_range.2 hj)
      simpa using this
    · intro t ht
      have := List.all_eq_true.1 h3 t ht
      simpa using this
    · intro t w hw
      rw [hw] at h4
      exact h4
    · intro b hb
      have hm : (match gotoState lhs b with | .ok g => some g | .error _ => none) ∈ finTops s lhs := by
        unfold finTops
        rw [List.mem_eraseDups]
        exact List.mem_map.2 ⟨b, hb, rfl⟩
      have := List.all_eq_true.1 h5 _ hm
      cases hg : gotoState lhs b with
      | error e => rw [hg] at this; simp at this
      | ok g =>
        rw [hg] at this hm
        simp only [Bool.and_eq_true, Bool.or_eq_true, decide_eq_true_eq] at this
        have h7' := List.all_eq_true.1 h7 b hb
        rw [hg] at h7'
        simp only [Bool.and_eq_true, decide_eq_true_eq, List.contains_iff_mem] at h7'
        refine ⟨g, rfl, this.1, h7'.1, h7'.2, this.2, ?_⟩
        intro t ht htb
        have hmask : (finMask s lhs).testBit t = true := foldr_mask hm htb
        have := List.all_eq_true.1 h6 t (List.mem_range.2 ht)
        rw [hmask] at this
        simp only [Bool.not_true, Bool.false_or, beq_iff_eq] at this
        refine ⟨this, fun hw => ?_⟩
        rw [hw] at h4
        exact sub_testBit h4 hmask

theorem plain_ok {t : Nat} (h : 4 ≤ t ∧ t ≤ 128) : 57346 ≤ (plainToken t).1 ∧ (plainToken t).1 ≤ 57470 ∧ codeBit (plainToken t).1 = t := by
  unfold plainToken codeBit tokNo
  simp only
  refine ⟨by omega, by omega, ?_⟩
  rw [if_neg (by omega)]
  omega

/-- Words of the certificate as tokens. -/
def plainWord (w : List Nat) : List Token := w.map plainToken

theorem plainWord_ok {w : List Nat} (h : ∀ t ∈ w, 4 ≤ t ∧ t ≤ 128) : OkToks (plainWord w) ∧ (plainWord w).map (fun x => codeBit x.1) = w := by
  constructor
  · intro x hx
    obtain ⟨t, ht, rfl⟩ := List.mem_map.1 hx
    exact ⟨(plain_ok (h t ht)).1, (plain_ok (h t ht)).2.1⟩
  · unfold plainWord
    rw [List.map_map]
    have : w.map (fun t => codeBit (plainToken t).1) = w.map id := List.map_congr_left fun t ht => (plain_ok (h t ht)).2.2
    simpa [Function.comp_def] using this

/-- The tokens of the certificate. -/
def finTokens : List Nat := ((List.range 432).flatMap finWord).eraseDups

attribute [irreducible] finRank finPop finWord finAhead finRule

theorem path_one {l : List Nat} (h : Path (1 :: l)) : l = [0] := by
  cases h with
  | cons _ p l hp _ hpred =>
    rw [show preds 1 = [0] by decide +kernel] at hpred
    simp at hpred
    subst hpred
    cases hp with
    | base => rfl
    | cons _ _ _ _ _ h => rw [show preds 0 = [] by decide +kernel] at h; simp at h

theorem fin_arith {a c n k rs rg : Nat} (h1 : a = k + c) (h2 : 1 ≤ k)
    (h3 : rg < 32) (h4 : 2 ≤ k ∨ rg < rs) (h5 : 32 * a + rs ≤ n + 1) : 32 * (c + 1) + rg ≤ n := by
  subst h1
  rcases h4 with h4 | h4
  · omega
  · omega

theorem fin_measure {s g b n k rs rg : Nat} {l l' : List Nat} (h1 : (s :: l).length = k + (b :: l').length) (h2 : 1 ≤ k)
    (h3 : rg < 32) (h4 : 2 ≤ k ∨ rg < rs) (h5 : (s :: l).length * 32 + rs ≤ n + 1) : (g :: b :: l').length * 32 + rg ≤ n := by
  rw [Nat.mul_comm] at h5 ⊢
  exact fin_arith h1 h2 h3 h4 h5

/-- Every stack can be finished, whatever the trees on it. -/
theorem path_finish : ∀ (n : Nat) {s : Nat} {l : List Nat}, Path (s :: l) → s ≠ 0 → (s :: l).length * 32 + finRank s ≤ n →
    ∃ w : List Nat, (∀ t ∈ w, t ∈ finTokens ∧ 4 ≤ t ∧ t ≤ 128) ∧ (finAhead s).testBit (codeBit (firstCode 0 (plainWord w))) = true ∧
      ∀ ts : List Tree, l.length = ts.length → ∃ ss t, Reach ⟨s :: l, ts, plainWord w⟩ ⟨ss, [t], []⟩ ∧ astep ⟨ss, [t], []⟩ = .accept := by
  intro n
  induction n with
  | zero => intro s l _ _ h; simp at h
  | succ n ih =>
    intro s l hp h0 hn
    by_cases h1 : s = 1
    · subst h1
      have := path_one hp
      subst this
      refine ⟨[], by simp, finAhead_one, ?_⟩
      intro ts hts
      obtain ⟨t, rfl⟩ := List.length_eq_one_iff.1 hts.symm
      refine ⟨_, t, .refl, ?_⟩
      unfold astep
      simp only [firstCode]
      rw [show act 1 (tokNo 0) = .ok .accept from checkAccept.2]
    · obtain ⟨lhs, hf⟩ := fin_ok (by omega) hp.lt
      obtain ⟨b, l', hdrop⟩ := path_deep hp (List.mem_singleton.2 rfl) hf.deep
      obtain ⟨hb, hpb⟩ := path_predsN hp (List.mem_singleton.2 rfl) hdrop
      obtain ⟨g, hg, hg0, hglt, hgp, hrank, hla⟩ := hf.goto b hb
      obtain ⟨rhs, hrule⟩ := hf.rule
      have hrg : finRank g < 32 := by simpa using List.all_eq_true.1 finRanks g (List.mem_range.2 hglt)
      have hlen : (s :: l).length = finPop s + (b :: l').length := by
        have := congrArg List.length hdrop
        simp only [List.length_drop] at this
        have : 0 < (b :: l').length := by simp
        omega
      have hpop := hf.pop
      obtain ⟨w, hw1, hw2, hw3⟩ := ih (s := g) (l := b :: l') (.cons _ _ _ hpb hglt hgp) (by omega) (by
        exact fin_measure hlen hpop hrg hrank hn)
      have hwok := plainWord_ok fun t ht => (hw1 t ht).2
      have hsok := plainWord_ok hf.word
      have hbit := codeBit_pos' hwok.1
      obtain ⟨hsim, hsa⟩ := hla (codeBit (firstCode 0 (plainWord w))) (by omega) hw2
      have happ : plainWord (finWord s ++ w) = plainWord (finWord s) ++ plainWord w := by simp [plainWord]
      refine ⟨finWord s ++ w, ?_, ?_, ?_⟩
      · intro t ht
        rcases List.mem_append.1 ht with ht | ht
        · refine ⟨?_, hf.word t ht⟩
          unfold finTokens
          rw [List.mem_eraseDups]
          exact List.mem_flatMap.2 ⟨s, List.mem_range.2 hp.lt, ht⟩
        · exact hw1 t ht
      · rw [happ, first_head hsok.2]
        cases hws : finWord s with
        | nil => exact hsa hws
        | cons t v => exact hf.first t v hws
      · intro ts hts
        obtain ⟨s2, loc2, ts2, lhs', rhs', k1, k2, k3, k4, k5⟩ := sim_run hsim l ts _ (plainWord w) hsok.2
          (okToks_append.2 ⟨hsok.1, hwok.1⟩) rfl
        rw [hrule] at k3
        cases k3
        have hd2 : (s2 :: (loc2 ++ l)).drop rhs.length = b :: l' := by
          have e : s2 :: (loc2 ++ l) = (s2 :: loc2) ++ l := rfl
          rw [e, List.drop_append, List.drop_eq_nil_of_le k4, List.nil_append, ← hdrop,
            show finPop s = rhs.length - (s2 :: loc2).length + 1 from k5, List.drop_succ_cons]
        have hstep : astep ⟨s2 :: loc2 ++ l, ts2, plainWord w⟩ =
            .next ⟨g :: b :: l', .node (finRule s) (ts2.take rhs.length).reverse :: ts2.drop rhs.length, plainWord w⟩ := by
          unfold astep
          simp only [List.cons_append]
          rw [tokNo_bit hwok.1, k2]
          simp only [hrule, hd2, hg]
        have hr := k1.tail hstep
        have hinv := path_reach hr hp (okToks_append.2 ⟨hsok.1, hwok.1⟩) (by simp; omega)
        obtain ⟨ss, t, h1, h2⟩ := hw3 (.node (finRule s) (ts2.take rhs.length).reverse :: ts2.drop rhs.length) (by simpa using hinv.2.2)
        rw [happ]
        exact ⟨ss, t, hr.trans h1, h2⟩

end Asn1go.LR
