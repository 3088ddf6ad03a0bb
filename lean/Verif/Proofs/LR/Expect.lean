import Verif.Proofs.LR.Finish
import Verif.Model.Message

/-! Reductions made with one token ahead, compared with those made with another: a token that could be shifted where the
other is an error can be shifted when it stands in the other's place. -/

namespace Asn1go.LR

open Asn1go Spec

/-- A reduction with token number `t` ahead. -/
def red (t : Int) : List Nat → Option (List Nat)
  | [] => none
  | s :: l =>
    match act s t with
    | .ok (.reduce r) =>
      match ruleOf r with
      | none => none
      | some (lhs, rhs) =>
        match (s :: l).drop rhs.length with
        | [] => none
        | b :: l' =>
          match gotoState lhs b with
          | .error _ => none
          | .ok g => some (g :: b :: l')
    | _ => none

/-- Several reductions. -/
def redN (t : Int) : Nat → List Nat → Option (List Nat)
  | 0, σ => some σ
  | n + 1, σ => (red t σ).bind (redN t n)

/-- What the tables say for a stack. -/
def actTop (t : Int) : List Nat → Except Abort Decision
  | [] => .error .panic
  | s :: _ => act s t

theorem redN_succ {t : Int} {n : Nat} {σ σ' : List Nat} : redN t (n + 1) σ = some σ' ↔ ∃ τ, red t σ = some τ ∧ redN t n τ = some σ' := by
  simp [redN, Option.bind_eq_some_iff]

theorem redN_add {t : Int} : ∀ {n m : Nat} {σ τ υ : List Nat}, redN t n σ = some τ → redN t m τ = some υ → redN t (n + m) σ = some υ
  | 0, m, σ, τ, υ, h, h' => by cases h; simpa using h'
  | n + 1, m, σ, τ, υ, h, h' => by
    obtain ⟨ρ, h1, h2⟩ := redN_succ.1 h
    rw [Nat.succ_add]
    exact redN_succ.2 ⟨ρ, h1, redN_add h2 h'⟩

theorem red_act {t : Int} {σ τ : List Nat} (h : red t σ = some τ) : ∃ r, actTop t σ = .ok (.reduce r) := by
  unfold red at h
  split at h
  · cases h
  · split at h
    · next r hr => exact ⟨r, hr⟩
    · cases h

/-- Stacks where the reductions stop are where they stop. -/
theorem redN_stop {t : Int} : ∀ {n m : Nat} {σ τ υ : List Nat}, redN t n σ = some τ → redN t m σ = some υ →
    (∀ r, actTop t τ ≠ .ok (.reduce r)) → (∀ r, actTop t υ ≠ .ok (.reduce r)) → τ = υ
  | 0, 0, σ, τ, υ, h, h', _, _ => by cases h; cases h'; rfl
  | 0, m + 1, σ, τ, υ, h, h', k, _ => by
    cases h
    obtain ⟨ρ, h1, _⟩ := redN_succ.1 h'
    obtain ⟨r, hr⟩ := red_act h1
    exact absurd hr (k r)
  | n + 1, 0, σ, τ, υ, h, h', _, k => by
    cases h'
    obtain ⟨ρ, h1, _⟩ := redN_succ.1 h
    obtain ⟨r, hr⟩ := red_act h1
    exact absurd hr (k r)
  | n + 1, m + 1, σ, τ, υ, h, h', k, k' => by
    obtain ⟨ρ, h1, h2⟩ := redN_succ.1 h
    obtain ⟨ρ', h1', h2'⟩ := redN_succ.1 h'
    rw [h1] at h1'
    cases h1'
    exact redN_stop h2 h2' k k'

/-- Going on from a stack on the way. -/
theorem redN_rest {t : Int} : ∀ {n m : Nat} {σ τ υ : List Nat}, redN t n σ = some τ → redN t m σ = some υ → n ≤ m → redN t (m - n) τ = some υ
  | 0, m, σ, τ, υ, h, h', _ => by cases h; exact h'
  | n + 1, 0, σ, τ, υ, _, _, h => by omega
  | n + 1, m + 1, σ, τ, υ, h, h', hle => by
    obtain ⟨ρ, h1, h2⟩ := redN_succ.1 h
    obtain ⟨ρ', h1', h2'⟩ := redN_succ.1 h'
    rw [h1] at h1'
    cases h1'
    rw [show m + 1 - (n + 1) = m - n by omega]
    exact redN_rest h2 h2' (by omega)

theorem red_path {t : Int} {σ τ : List Nat} (h : red t σ = some τ) (hp : Path σ) (h1 : 1 ≤ t) (h2 : t ≤ 128) : Path τ := by
  cases σ with
  | nil => cases hp
  | cons s l =>
    obtain ⟨d, hd, hok⟩ := act_ok hp.lt h1 h2
    unfold red at h
    simp only [hd] at h
    cases hok with
    | shift => cases h
    | accept => cases h
    | error => cases h
    | reduce r lhs rhs B hr =>
      obtain ⟨b, l', g, k1, _, k3, k4⟩ := path_reduce hr hp
      simp only [hr.rule, k1, k3] at h
      cases h
      exact k4

theorem redN_path {t : Int} (h1 : 1 ≤ t) (h2 : t ≤ 128) : ∀ {n : Nat} {σ τ : List Nat}, redN t n σ = some τ → Path σ → Path τ
  | 0, σ, τ, h, hp => by cases h; exact hp
  | n + 1, σ, τ, h, hp => by
    obtain ⟨ρ, k1, k2⟩ := redN_succ.1 h
    exact redN_path h1 h2 k2 (red_path k1 hp h1 h2)

/-- Reductions of the machine. -/
theorem red_reach {t : Int} {σ τ : List Nat} (h : red t σ = some τ) (ts : List Tree) (R : List Token) (hR : tokNo (firstCode 0 R) = t) :
    ∃ ts', astep ⟨σ, ts, R⟩ = .next ⟨τ, ts', R⟩ := by
  unfold red at h
  split at h
  · cases h
  · split at h
    · next r hr =>
      split at h
      · cases h
      · next lhs rhs hrule =>
        split at h
        · cases h
        · next b l hd =>
          split at h
          · cases h
          · next g hg =>
            cases h
            unfold astep
            simp only [hR, hr, hrule, hd, hg]
            exact ⟨_, rfl⟩
    · cases h

theorem redN_reach {t : Int} : ∀ {n : Nat} {σ τ : List Nat}, redN t n σ = some τ → ∀ (ts : List Tree) (R : List Token),
    tokNo (firstCode 0 R) = t → ∃ ts', Reach ⟨σ, ts, R⟩ ⟨τ, ts', R⟩
  | 0, σ, τ, h, ts, R, _ => by cases h; exact ⟨ts, .refl⟩
  | n + 1, σ, τ, h, ts, R, hR => by
    obtain ⟨ρ, k1, k2⟩ := redN_succ.1 h
    obtain ⟨ts1, h1⟩ := red_reach k1 ts R hR
    obtain ⟨ts2, h2⟩ := redN_reach k2 ts1 R hR
    exact ⟨ts2, .head h1 h2⟩

/-- With token number `t` ahead every stack with state `s` on top leads to a shift. -/
def evShift (t : Int) : Nat → Nat → Bool
  | 0, _ => false
  | f + 1, s =>
    match act s t with
    | .ok (.shift _) => true
    | .ok (.reduce r) =>
      match ruleOf r with
      | none => false
      | some (lhs, rhs) =>
        match walk ((rhs.map symInt).reverse) [s] with
        | none => false
        | some B => B.all fun b => match gotoState lhs b with
          | .ok g => evShift t f g
          | .error _ => false
    | _ => false

theorem evShift_run {t : Int} (h1 : 1 ≤ t) (h2 : t ≤ 128) : ∀ {f s : Nat} {l : List Nat}, evShift t f s = true → Path (s :: l) →
    ∃ n τ st, redN t n (s :: l) = some τ ∧ actTop t τ = .ok (.shift st)
  | 0, _, _, h, _ => by cases h
  | f + 1, s, l, h, hp => by
    obtain ⟨d, hd, hok⟩ := act_ok hp.lt h1 h2
    unfold evShift at h
    simp only [hd] at h
    cases hok with
    | shift n _ => exact ⟨0, _, n, rfl, hd⟩
    | accept => cases h
    | error => cases h
    | reduce r lhs rhs B hr =>
      simp only [hr.rule, hr.walk] at h
      obtain ⟨b, l', g, k1, k2, k3, k4⟩ := path_reduce hr hp
      have := List.all_eq_true.1 h b k2
      simp only [k3] at this
      obtain ⟨n, τ, st, h1, h2⟩ := evShift_run h1 h2 this k4
      refine ⟨n + 1, τ, st, redN_succ.2 ⟨g :: b :: l', ?_, h1⟩, h2⟩
      unfold red
      simp only [hd, hr.rule, k1, k3]

/-- States with exceptions. -/
def excStates : List Nat := (List.range 432).filter fun s => match Tab.yyDef.at s with
  | .ok n => n == -2
  | .error _ => true

/-- The decision is a shift. -/
def isShift : Except Abort Decision → Bool
  | .ok (.shift _) => true
  | _ => false

def isReduce : Except Abort Decision → Bool
  | .ok (.reduce _) => true
  | _ => false

def decEq (a b : Except Abort Decision) : Bool :=
  match a, b with
  | .ok a, .ok b => a == b
  | _, _ => false

/-- DOT. -/
def dotNo : Int := Tok.DOT - 57342

/-- In a state with exceptions a token is decided by the default, or leads to a shift. -/
theorem excCheck : excStates.all (fun s => (List.range 128).all fun i =>
    let t : Int := (i : Int) + 1
    isShift (act s t) || decEq (act s t) (act s 2) || evShift t 12 s || (s == 47 && t == dotNo) || s == 1) = true := by decide +kernel

theorem excOne : ((List.range 128).all fun i => !isReduce (act 1 ((i : Int) + 1))) = true := by decide +kernel

/-- Two reductions from state 47 with any token ahead, over these states. -/
def same47 (p : Nat) : Bool :=
  (List.range 128).all fun i =>
    let t : Int := (i : Int) + 1
    (redN t 2 [47, p] == redN 2 2 [47, p]) && (redN t 2 [47, p]).isSome &&
      isReduce (act 47 t)

theorem check47 : (preds 47).all (fun p => same47 p || (p == 260 && match redN dotNo 1 [47, p] with
    | some (g :: _) => evShift dotNo 12 g
    | _ => false)) = true := by decide +kernel

/-- Reductions do not depend on what is below. -/
theorem red_append {t : Int} {σ τ : List Nat} (l : List Nat) (h : red t σ = some τ) : red t (σ ++ l) = some (τ ++ l) := by
  unfold red at h ⊢
  split at h
  · cases h
  · next s l0 =>
    simp only [List.cons_append]
    split at h
    · next r hr =>
      split at h
      · cases h
      · next lhs rhs hrule =>
        split at h
        · cases h
        · next b l' hd =>
          split at h
          · cases h
          · next g hg =>
            cases h
            have : List.drop rhs.length (s :: (l0 ++ l)) = b :: (l' ++ l) := by
              have e : s :: (l0 ++ l) = (s :: l0) ++ l := rfl
              have hlen : rhs.length ≤ (s :: l0).length := by
                have := congrArg List.length hd
                simp only [List.length_drop, List.length_cons] at this ⊢
                omega
              rw [e, List.drop_append_of_le_length hlen, hd]
              rfl
            simp only [hr, hrule, this, hg]
            rfl
    · cases h

theorem redN_append {t : Int} (l : List Nat) : ∀ {n : Nat} {σ τ : List Nat}, redN t n σ = some τ → redN t n (σ ++ l) = some (τ ++ l)
  | 0, σ, τ, h => by cases h; rfl
  | n + 1, σ, τ, h => by
    obtain ⟨ρ, k1, k2⟩ := redN_succ.1 h
    exact redN_succ.2 ⟨ρ ++ l, red_append l k1, redN_append l k2⟩

/-- Without exceptions what is not shifted is decided alike. -/
theorem act_default {s : Nat} {t t' : Int} (hs : s < 432) (hx : s ∉ excStates) (h1 : 1 ≤ t) (h2 : t ≤ 128) (h1' : 1 ≤ t') (h2' : t' ≤ 128)
    (hn : isShift (act s t) = false) (hn' : isShift (act s t') = false) : act s t = act s t' := by
  obtain ⟨o, ho, _⟩ := shiftOk hs h1 h2
  obtain ⟨o', ho', _⟩ := shiftOk hs h1' h2'
  obtain ⟨n, hd, _⟩ := yyDef_ok hs
  have hne : n ≠ -2 := by
    rintro rfl
    apply hx
    unfold excStates
    rw [List.mem_filter]
    refine ⟨List.mem_range.2 hs, ?_⟩
    rw [hd]
    rfl
  unfold act at *
  rw [ho, ok_bind] at hn ⊢
  rw [ho', ok_bind] at hn' ⊢
  cases o with
  | some _ => cases hn
  | none =>
    cases o' with
    | some _ => cases hn'
    | none =>
      simp only
      rw [hd, ok_bind, ok_bind, if_neg hne, if_neg hne]

theorem red_congr {s : Nat} {t t' : Int} {l : List Nat} (h : act s t = act s t') : red t (s :: l) = red t' (s :: l) := by
  simp only [red, h]

theorem decEq_eq {a b : Except Abort Decision} (h : decEq a b = true) : a = b := by
  unfold decEq at h
  split at h
  · simpa using h
  · cases h

/-- A token that would be shifted where `b` is an error, is shifted when it stands in place of `b`. -/
theorem lockstep {b t : Int} (hb1 : 1 ≤ b) (hb2 : b ≤ 128) (ht1 : 1 ≤ t) (ht2 : t ≤ 128) {σe : List Nat}
    (he : actTop b σe = .ok .error) {se : Nat} (hse : actTop t σe = .ok (.shift se)) :
    ∀ (N n : Nat) {σ : List Nat}, n ≤ N → Path σ → redN b n σ = some σe → ∃ m τ st, redN t m σ = some τ ∧ actTop t τ = .ok (.shift st)
  | _, 0, σ, _, _, h => by cases h; exact ⟨0, _, se, rfl, hse⟩
  | 0, n + 1, _, hn, _, _ => by omega
  | N + 1, n + 1, σ, hn, hp, h => by
    have hne : ∀ r, actTop b σe ≠ .ok (.reduce r) := by intro r hr; rw [he] at hr; cases hr
    -- a run with `b` that shifts is impossible
    have hno : ∀ {m τ st}, redN b m σ = some τ → actTop b τ ≠ .ok (.shift st) := by
      intro m τ st h1 h2
      have := redN_stop h h1 hne (by intro r hr; rw [h2] at hr; cases hr)
      subst this
      rw [he] at h2
      cases h2
    cases σ with
    | nil => cases hp
    | cons s l =>
      have hs := hp.lt
      by_cases hsh : isShift (act s t) = true
      · unfold isShift at hsh
        split at hsh
        · next st hst => exact ⟨0, _, st, rfl, hst⟩
        · cases hsh
      have hsh : isShift (act s t) = false := by simpa using hsh
      obtain ⟨τ1, k1, k2⟩ := redN_succ.1 h
      obtain ⟨r, hr⟩ := red_act k1
      have hr : act s b = .ok (.reduce r) := hr
      by_cases heq : act s t = act s b
      · rw [← red_congr heq] at k1
        obtain ⟨m, τ, st, h1, h2⟩ := lockstep hb1 hb2 ht1 ht2 he hse N n (by omega) (red_path k1 hp ht1 ht2) k2
        exact ⟨m + 1, τ, st, redN_succ.2 ⟨τ1, k1, h1⟩, h2⟩
      · have hbs : isShift (act s b) = false := by rw [hr]; rfl
        have hx : s ∈ excStates := by
          refine Decidable.byContradiction fun hx => ?_
          exact heq (act_default hs hx ht1 ht2 hb1 hb2 hsh hbs)
        have hs1 : s ≠ 1 := by
          rintro rfl
          have := List.all_eq_true.1 excOne (b - 1).toNat (List.mem_range.2 (by omega))
          rw [show (((b - 1).toNat : Nat) : Int) + 1 = b by omega, hr] at this
          cases this
        have key : ∀ v : Int, 1 ≤ v → v ≤ 128 → isShift (act s v) = false →
            act s v = act s 2 ∨ evShift v 12 s = true ∨ (s = 47 ∧ v = dotNo) := by
          intro v h1 h2 h3
          have := List.all_eq_true.1 (List.all_eq_true.1 excCheck s hx) (v - 1).toNat (List.mem_range.2 (by omega))
          simp only at this
          rw [show (((v - 1).toNat : Nat) : Int) + 1 = v by omega, h3] at this
          simp only [Bool.false_or, Bool.or_eq_true, Bool.and_eq_true, beq_iff_eq] at this
          rcases this with ((h | h) | h) | h
          · exact Or.inl (decEq_eq h)
          · exact Or.inr (Or.inl h)
          · exact Or.inr (Or.inr h)
          · exact absurd h hs1
        have h47 : s = 47 → (b = dotNo ∨ t = dotNo) → ∃ m τ st, redN t m (s :: l) = some τ ∧ actTop t τ = .ok (.shift st) := by
          rintro rfl hdot
          cases hp with
          | cons _ p l hp' _ hpred =>
            have := List.all_eq_true.1 check47 p hpred
            rw [Bool.or_eq_true] at this
            rcases this with hsame | h260
            · unfold same47 at hsame
              have hv : ∀ v : Int, 1 ≤ v → v ≤ 128 → redN v 2 [47, p] = redN 2 2 [47, p] ∧ (redN v 2 [47, p]).isSome = true := by
                intro v h1 h2
                have := List.all_eq_true.1 hsame (v - 1).toNat (List.mem_range.2 (by omega))
                simp only at this
                rw [show (((v - 1).toNat : Nat) : Int) + 1 = v by omega] at this
                simp only [Bool.and_eq_true, beq_iff_eq] at this
                exact this.1
              obtain ⟨τ2, hτ2⟩ := Option.isSome_iff_exists.1 (hv b hb1 hb2).2
              have hτ2' : redN t 2 [47, p] = some τ2 := by rw [(hv t ht1 ht2).1, ← (hv b hb1 hb2).1]; exact hτ2
              have hB := redN_append l hτ2
              have hT := redN_append l hτ2'
              simp only [List.cons_append, List.nil_append] at hB hT
              have hp2 := redN_path ht1 ht2 hT (.cons _ _ _ hp' hs hpred)
              by_cases h2 : 2 ≤ n + 1
              · have := redN_rest hB h h2
                obtain ⟨m, τ, st, h1, h3⟩ := lockstep hb1 hb2 ht1 ht2 he hse N _ (by omega) hp2 this
                exact ⟨2 + m, τ, st, redN_add hT h1, h3⟩
              · have : n = 0 := by omega
                subst this
                cases k2
                obtain ⟨ρ, q1, q2⟩ := redN_succ.1 hB
                rw [k1] at q1
                cases q1
                obtain ⟨ρ, q1, _⟩ := redN_succ.1 q2
                obtain ⟨r, q⟩ := red_act q1
                exact absurd q (hne r)
            · simp only [Bool.and_eq_true] at h260
              have h260 := h260.2
              split at h260
              · next g l2 hg =>
                have hG := redN_append l hg
                simp only [List.cons_append, List.nil_append] at hG
                obtain ⟨m, τ, st, h1, h2⟩ := evShift_run (by decide) (by decide) h260
                  (redN_path (by decide) (by decide) hG (.cons _ _ _ hp' hs hpred))
                have hrun := redN_add hG h1
                rcases hdot with rfl | rfl
                · exact absurd h2 (hno hrun)
                · exact ⟨_, τ, st, hrun, h2⟩
              · cases h260
        rcases key t ht1 ht2 hsh with hA | hA | ⟨h0, hA⟩
        · rcases key b hb1 hb2 hbs with hB | hB | ⟨h0, hB⟩
          · exact absurd (hA.trans hB.symm) heq
          · obtain ⟨m, τ, st, h1, h2⟩ := evShift_run hb1 hb2 hB hp
            exact absurd h2 (hno h1)
          · exact h47 h0 (Or.inl hB)
        · exact evShift_run ht1 ht2 hA hp
        · exact h47 h0 (Or.inr hA)

end Asn1go.LR
