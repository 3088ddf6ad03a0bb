import Verif.Proofs.Codegen.Names
import Verif.Spec.StructTag
import Verif.Spec.GoFile
import Mathlib.Tactic.Ring

/-! Numbers as text. -/

namespace Asn1go.CG

open Spec

theorem decimal_snoc : ∀ (l : Str) (c : Char), decimal (l ++ [c]) = decimal l * 10 + (c.toNat - 48)
  | [], c => by simp [decimal]
  | a :: l, c => by
    rw [List.cons_append, decimal, decimal, decimal_snoc l c, List.length_append, List.length_singleton, pow_succ]
    ring

/-- A decimal digit. -/
def Digit (c : Char) : Prop := 48 ≤ c.toNat ∧ c.toNat ≤ 57

theorem digit_toNat (k : Nat) : (Char.ofNat (48 + k % 10)).toNat = 48 + k % 10 := by
  exact toNat_ofNat (by omega)

theorem natStrAux_spec : ∀ (fuel n : Nat) (acc : Str), n < fuel → ∃ ds, natStrAux fuel n acc = ds ++ acc ∧ decimal ds = n ∧ ds ≠ [] ∧
    (∀ c ∈ ds, Digit c)
  | 0, _, _, h => by omega
  | fuel + 1, n, acc, h => by
    rw [natStrAux]
    split
    · rename_i h0
      refine ⟨[Char.ofNat (48 + n % 10)], rfl, ?_, by simp, ?_⟩
      · simp only [decimal, digit_toNat, List.length_nil, pow_zero, mul_one]
        omega
      · intro c hc
        simp only [List.mem_singleton] at hc
        subst hc
        unfold Digit
        rw [digit_toNat]
        omega
    · rename_i h0
      obtain ⟨ds, h1, h2, h3, h4⟩ := natStrAux_spec fuel (n / 10) (Char.ofNat (48 + n % 10) :: acc) (by omega)
      refine ⟨ds ++ [Char.ofNat (48 + n % 10)], by rw [h1]; simp, ?_, by simp, ?_⟩
      · rw [decimal_snoc, h2, digit_toNat]
        omega
      · intro c hc
        rcases List.mem_append.1 hc with hc | hc
        · exact h4 c hc
        · simp only [List.mem_singleton] at hc
          subst hc
          unfold Digit
          rw [digit_toNat]
          omega

theorem natStr_spec (n : Nat) : decimal (natStr n) = n ∧ natStr n ≠ [] ∧ ∀ c ∈ natStr n, Digit c := by
  obtain ⟨ds, h1, h2, h3, h4⟩ := natStrAux_spec (n + 1) n [] (by omega)
  unfold natStr
  rw [h1, List.append_nil]
  exact ⟨h2, h3, h4⟩

theorem all_digits {l : Str} (h : ∀ c ∈ l, Digit c) : l.all (fun c => decide (48 ≤ c.toNat ∧ c.toNat ≤ 57)) = true := by
  rw [List.all_eq_true]
  intro c hc
  exact decide_eq_true (h c hc)

theorem signed_natStr (n : Nat) : signed (natStr n) = some (n : Int) := by
  obtain ⟨h1, h2, h3⟩ := natStr_spec n
  cases hl : natStr n with
  | nil => exact absurd hl h2
  | cons c l =>
    rw [hl] at h1 h3
    have hc := h3 c (by simp)
    unfold signed
    split
    · rename_i h
      cases h
      exact absurd hc (by unfold Digit; decide)
    · rename_i h
      cases h
      exact absurd hc (by unfold Digit; decide)
    · rw [if_pos ⟨by simp, all_digits h3⟩, h1]

theorem signed_intStr (n : Int) : signed (intStr n) = some n := by
  unfold intStr
  split
  · rename_i h
    obtain ⟨h1, h2, h3⟩ := natStr_spec n.natAbs
    rw [signed, if_pos ⟨h2, all_digits h3⟩, h1]
    congr 1
    omega
  · rename_i h
    rw [signed_natStr]
    congr 1
    omega

theorem intStr_chars (n : Int) : ∀ c ∈ intStr n, Digit c ∨ c = '-' := by
  intro c hc
  unfold intStr at hc
  split at hc
  · rcases List.mem_cons.1 hc with h | h
    · exact .inr h
    · exact .inl ((natStr_spec _).2.2 c h)
  · exact .inl ((natStr_spec _).2.2 c hc)

theorem intStr_comma (n : Int) : ',' ∉ intStr n := by
  intro h
  rcases intStr_chars n _ h with h | h
  · revert h; unfold Digit; decide
  · revert h; decide

/-- Different numbers have different texts. -/
theorem intStr_inj {a b : Int} (h : intStr a = intStr b) : a = b := by
  have := signed_intStr a
  rw [h, signed_intStr] at this
  exact (Option.some.inj this).symm

theorem natStrAux_head : ∀ (fuel n : Nat) (acc : Str), n < fuel → 0 < n → ∃ c t, natStrAux fuel n acc = c :: t ∧ c ≠ '0'
  | 0, _, _, h, _ => by omega
  | fuel + 1, n, acc, h, hn => by
    rw [natStrAux]
    split
    · rename_i h0
      refine ⟨_, _, rfl, fun hc => ?_⟩
      have := congrArg Char.toNat hc
      rw [digit_toNat] at this
      have h48 : ('0' : Char).toNat = 48 := rfl
      omega
    · exact natStrAux_head fuel (n / 10) _ (by omega) (by omega)

theorem leadingZero_intStr (n : Int) : leadingZero (intStr n) = false := by
  have key : ∀ k : Nat, natStr k = ['0'] ∨ ∃ c t, natStr k = c :: t ∧ c ≠ '0' := by
    intro k
    rcases Nat.eq_zero_or_pos k with rfl | hk
    · exact .inl rfl
    · exact .inr (natStrAux_head (k + 1) k [] (by omega) hk)
  have hd : ∀ c ∈ natStr n.natAbs, c ≠ '-' := by
    intro c hc he
    have := (natStr_spec n.natAbs).2.2 c hc
    subst he
    unfold Digit at this
    revert this
    decide
  unfold intStr
  split
  · rcases key n.natAbs with h | ⟨c, t, h, hc⟩ <;> rw [h]
    · rfl
    · unfold leadingZero
      split
      · rename_i heq
        simp at heq
      · rename_i heq
        simp only [List.cons.injEq, true_and] at heq
        exact absurd heq.1 hc
      · rfl
  · rcases key n.natAbs with h | ⟨c, t, h, hc⟩
    · rw [h]
      rfl
    · have hm := hd c (by rw [h]; simp)
      rw [h]
      unfold leadingZero
      split
      · rename_i heq
        simp only [List.cons.injEq] at heq
        exact absurd heq.1 hc
      · rename_i heq
        simp only [List.cons.injEq] at heq
        exact absurd heq.1 hm
      · rfl

end Asn1go.CG
