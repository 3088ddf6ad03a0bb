import Verif.Spec.Codegen
import Verif.Spec.Lexical

/-! Go names made from ASN.1 names. -/

namespace Asn1go.CG

open Spec

theorem toNat_ofNat {n : Nat} (h : n < 55296) : (Char.ofNat n).toNat = n := by
  have hv : n.isValidChar := .inl h
  unfold Char.ofNat
  rw [dif_pos hv]
  rfl

/-- The character for `c` in a Go name. -/
def under (c : Char) : Char := if c = '-' then '_' else c

theorem not_separator {u : Casing} {c : Char} (h : WordChar u.toUnicode c) : isSeparator u (under c) = false := by
  unfold under
  split
  · rfl
  · rename_i hm
    unfold isSeparator
    by_cases hc : c.toNat ≤ 127
    · rw [if_pos hc]
      rcases h with h | h | h
      · rw [u.letter_ascii c (by omega)] at h
        simp at h ⊢
        omega
      · rw [u.digit_ascii c (by omega)] at h
        simp at h ⊢
        omega
      · exact absurd h hm
    · rw [if_neg hc]
      rcases h with h | h | h
      · simp [h]
      · simp [h]
      · exact absurd h hm

theorem titleFrom_word {u : Casing} : ∀ (prev : Char) (l : Str), isSeparator u prev = false → (∀ c ∈ l, WordChar u.toUnicode c) →
    titleFrom u prev (l.map under) = l.map under
  | _, [], _, _ => rfl
  | prev, c :: l, hp, h => by
    simp only [List.map_cons, titleFrom, hp]
    rw [titleFrom_word (under c) l (not_separator (h c (by simp))) (fun x hx => h x (by simp [hx]))]
    simp

/-- The Go name of a word: the first letter in title case, hyphens replaced. -/
theorem goify_word {u : Casing} {c : Char} {cs : Str} (hw : Word u.toUnicode (c :: cs)) :
    goifyName u (c :: cs) = u.toTitle c :: cs.map under := by
  have hl : u.isLetter c = true := by
    obtain ⟨_, _, h, hl⟩ := hw.letter
    cases h
    exact hl
  have hc : c ≠ '-' := by
    rintro rfl
    rw [u.letter_ascii '-' (by decide)] at hl
    revert hl
    decide
  have hcu : under c = c := by simp [under, hc]
  show titleFrom u ' ' ((c :: cs).map under) = _
  rw [List.map_cons, hcu, titleFrom]
  rw [titleFrom_word c cs (hcu ▸ not_separator (.inl hl)) (fun x hx => hw.chars x (by simp [hx]))]
  rfl

theorem titleFrom_dot {u : Casing} : ∀ (prev : Char) (l : Str), '.' ∉ l → '.' ∉ titleFrom u prev l
  | _, [], _ => by simp [titleFrom]
  | prev, c :: l, h => by
    rw [titleFrom]
    simp only [List.mem_cons, not_or] at h ⊢
    refine ⟨?_, titleFrom_dot c l h.2⟩
    split
    · intro hd
      by_cases hc : c.toNat < 128
      · rw [u.title_ascii c hc] at hd
        split at hd
        · rename_i h'
          have : (Char.ofNat (c.toNat - 32)).toNat = c.toNat - 32 := by
            exact toNat_ofNat (by omega)
          rw [← hd] at this
          have h46 : ('.' : Char).toNat = 46 := rfl
          omega
        · exact h.1 hd
      · have := u.title_other c (by omega)
        rw [← hd] at this
        have h46 : ('.' : Char).toNat = 46 := rfl
        omega
    · exact h.1

/-- No dot appears in a Go name. -/
theorem goify_dot {u : Casing} {l : Str} (h : '.' ∉ l) : '.' ∉ goifyName u l := by
  refine titleFrom_dot _ _ fun hm => h ?_
  obtain ⟨c, hc, h1⟩ := List.mem_map.1 hm
  split at h1
  · exact absurd h1 (by decide)
  · rw [← h1]; exact hc

theorem toTitle_upper {u : Casing} {c : Char} (h : c.toNat < 128) (hu : u.isUpper c = true) : u.toTitle c = c := by
  rw [u.upper_ascii c h] at hu
  simp at hu
  rw [u.title_ascii c h, if_neg (by omega)]

theorem toTitle_lower {u : Casing} {c : Char} (h : c.toNat < 128) (hl : u.isLetter c = true) (hu : u.isUpper c = false) :
    97 ≤ c.toNat ∧ c.toNat ≤ 122 ∧ (u.toTitle c).toNat = c.toNat - 32 := by
  rw [u.upper_ascii c h] at hu
  rw [u.letter_ascii c h] at hl
  simp at hu hl
  have : 97 ≤ c.toNat ∧ c.toNat ≤ 122 := by omega
  refine ⟨this.1, this.2, ?_⟩
  rw [u.title_ascii c h, if_pos this, toNat_ofNat (by omega)]

theorem char_ext {a b : Char} (h : a.toNat = b.toNat) : a = b := by
  rw [← Char.ofNat_toNat a, h, Char.ofNat_toNat]

theorem under_word {u : Casing} {c : Char} (h : WordChar u.toUnicode c) : c ≠ '_' := by
  rintro rfl
  rcases h with h | h | h
  · rw [u.letter_ascii _ (by decide)] at h
    revert h; decide
  · rw [u.digit_ascii _ (by decide)] at h
    revert h; decide
  · revert h; decide

theorem under_inj {a b : Char} (ha : a ≠ '_') (hb : b ≠ '_') (h : under a = under b) : a = b := by
  unfold under at h
  split at h <;> split at h
  · simp_all
  · exact absurd h.symm hb
  · exact absurd h ha
  · exact h

theorem map_under_inj : ∀ {a b : Str}, (∀ c ∈ a, c ≠ '_') → (∀ c ∈ b, c ≠ '_') → a.map under = b.map under → a = b
  | [], [], _, _, _ => rfl
  | [], _ :: _, _, _, h => by simp at h
  | _ :: _, [], _, _, h => by simp at h
  | x :: a, y :: b, ha, hb, h => by
    simp only [List.map_cons, List.cons.injEq] at h
    rw [under_inj (ha x (by simp)) (hb y (by simp)) h.1,
      map_under_inj (fun c hc => ha c (by simp [hc])) (fun c hc => hb c (by simp [hc])) h.2]

end Asn1go.CG
