/-! Checks over all numbers below a bound, put together from checks of twelve parts (which keeps the kernel's memory small). -/

namespace Asn1go.LR

/-- Check of the `k`-th part of 36 numbers. -/
def part (p : Nat → Bool) (k : Nat) : Bool := (List.range 36).all fun i => p (36 * k + i)

/-- Twelve parts of 36 numbers are the numbers below 432. -/
theorem all_of_parts {p : Nat → Bool} (h0 : part p 0 = true) (h1 : part p 1 = true) (h2 : part p 2 = true) (h3 : part p 3 = true)
    (h4 : part p 4 = true) (h5 : part p 5 = true) (h6 : part p 6 = true) (h7 : part p 7 = true) (h8 : part p 8 = true)
    (h9 : part p 9 = true) (h10 : part p 10 = true) (h11 : part p 11 = true) : (List.range 432).all p = true := by
  rw [List.all_eq_true]
  intro s hs
  have hs := List.mem_range.1 hs
  have key : ∀ k, part p k = true → s / 36 = k → p s = true := by
    intro k hk hd
    have := List.all_eq_true.1 hk (s % 36) (List.mem_range.2 (by omega))
    rwa [show 36 * k + s % 36 = s by omega] at this
  have hc : s / 36 < 12 := by omega
  generalize hq : s / 36 = q at *
  match q, hc with
  | 0, _ => exact key 0 h0 rfl
  | 1, _ => exact key 1 h1 rfl
  | 2, _ => exact key 2 h2 rfl
  | 3, _ => exact key 3 h3 rfl
  | 4, _ => exact key 4 h4 rfl
  | 5, _ => exact key 5 h5 rfl
  | 6, _ => exact key 6 h6 rfl
  | 7, _ => exact key 7 h7 rfl
  | 8, _ => exact key 8 h8 rfl
  | 9, _ => exact key 9 h9 rfl
  | 10, _ => exact key 10 h10 rfl
  | 11, _ => exact key 11 h11 rfl

end Asn1go.LR
