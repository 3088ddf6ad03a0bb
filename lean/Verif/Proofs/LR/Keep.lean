import Verif.Spec.Exact

/-! Which rules write the two fields pointers are made to.  Generated by tools/gen_keep.py. -/

namespace Asn1go.LR

open Asn1go Spec

variable {R D : Type}

/-- Rule `r` leaves the value alone unless its left-hand side has the type `<Value>`. -/
def KeepsValue (R D : Type) (r : Nat) : Prop := lhsOf r ∉ valueNTs →
  ∀ (p : Pointers R D) (d : Nat → SymType R D) (v : SymType R D), (action r p d v).value = v.value

/-- Rule `r` leaves the reference alone unless its left-hand side is `DefinedValue`. -/
def KeepsDefined (R D : Type) (r : Nat) : Prop := lhsOf r ≠ NT.«DefinedValue» →
  ∀ (p : Pointers R D) (d : Nat → SymType R D) (v : SymType R D), (action r p d v).definedValue = v.definedValue

/-- Only rules for a nonterminal of type `<Value>` write the value. -/
theorem action_value (r : Nat) (h1 : 1 ≤ r) (h2 : r ≤ 291) : KeepsValue R D r :=
  match r, h1, h2 with
  | 1, _, _ => fun _ _ _ _ => rfl
  | 2, _, _ => fun _ _ _ _ => rfl
  | 3, _, _ => fun _ _ _ _ => rfl
  | 4, _, _ => fun _ _ _ _ => rfl
  | 5, _, _ => fun _ _ _ _ => rfl
  | 6, _, _ => fun _ _ _ _ => rfl
  | 7, _, _ => fun _ _ _ _ => rfl
  | 8, _, _ => fun _ _ _ _ => rfl
  | 9, _, _ => fun _ _ _ _ => rfl
  | 10, _, _ => fun _ _ _ _ => rfl
  | 11, _, _ => fun _ _ _ _ => rfl
  | 12, _, _ => fun _ _ _ _ => rfl
  | 13, _, _ => fun _ _ _ _ => rfl
  | 14, _, _ => fun _ _ _ _ => rfl
  | 15, _, _ => fun _ _ _ _ => rfl
  | 16, _, _ => fun _ _ _ _ => rfl
  | 17, _, _ => fun _ _ _ _ => rfl
  | 18, _, _ => fun _ _ _ _ => rfl
  | 19, _, _ => fun _ _ _ _ => rfl
  | 20, _, _ => fun _ _ _ _ => rfl
  | 21, _, _ => fun _ _ _ _ => rfl
  | 22, _, _ => fun _ _ _ _ => rfl
  | 23, _, _ => fun _ _ _ _ => rfl
  | 24, _, _ => fun _ _ _ _ => rfl
  | 25, _, _ => fun _ _ _ _ => rfl
  | 26, _, _ => fun _ _ _ _ => rfl
  | 27, _, _ => fun _ _ _ _ => rfl
  | 28, _, _ => fun _ _ _ _ => rfl
  | 29, _, _ => fun _ _ _ _ => rfl
  | 30, _, _ => fun _ _ _ _ => rfl
  | 31, _, _ => fun _ _ _ _ => rfl
  | 32, _, _ => fun _ _ _ _ => rfl
  | 33, _, _ => fun _ _ _ _ => rfl
  | 34, _, _ => fun _ _ _ _ => rfl
  | 35, _, _ => fun _ _ _ _ => rfl
  | 36, _, _ => fun _ _ _ _ => rfl
  | 37, _, _ => fun _ _ _ _ => rfl
  | 38, _, _ => fun h => absurd (by decide +kernel) h
  | 39, _, _ => fun h => absurd (by decide +kernel) h
  | 40, _, _ => fun h => absurd (by decide +kernel) h
  | 41, _, _ => fun _ _ _ _ => rfl
  | 42, _, _ => fun _ _ _ _ => rfl
  | 43, _, _ => fun _ _ _ _ => rfl
  | 44, _, _ => fun _ _ _ _ => rfl
  | 45, _, _ => fun _ _ _ _ => rfl
  | 46, _, _ => fun _ _ _ _ => rfl
  | 47, _, _ => fun _ _ _ _ => rfl
  | 48, _, _ => fun _ _ _ _ => rfl
  | 49, _, _ => fun _ _ _ _ => rfl
  | 50, _, _ => fun _ _ _ _ => rfl
  | 51, _, _ => fun _ _ _ _ => rfl
  | 52, _, _ => fun _ _ _ _ => rfl
  | 53, _, _ => fun _ _ _ _ => rfl
  | 54, _, _ => fun _ _ _ _ => rfl
  | 55, _, _ => fun _ _ _ _ => rfl
  | 56, _, _ => fun _ _ _ _ => rfl
  | 57, _, _ => fun _ _ _ _ => rfl
  | 58, _, _ => fun _ _ _ _ => rfl
  | 59, _, _ => fun _ _ _ _ => rfl
  | 60, _, _ => fun _ _ _ _ => rfl
  | 61, _, _ => fun _ _ _ _ => rfl
  | 62, _, _ => fun _ _ _ _ => rfl
  | 63, _, _ => fun _ _ _ _ => rfl
  | 64, _, _ => fun _ _ _ _ => rfl
  | 65, _, _ => fun _ _ _ _ => rfl
  | 66, _, _ => fun _ _ _ _ => rfl
  | 67, _, _ => fun _ _ _ _ => rfl
  | 68, _, _ => fun _ _ _ _ => rfl
  | 69, _, _ => fun _ _ _ _ => rfl
  | 70, _, _ => fun _ _ _ _ => rfl
  | 71, _, _ => fun _ _ _ _ => rfl
  | 72, _, _ => fun _ _ _ _ => rfl
  | 73, _, _ => fun _ _ _ _ => rfl
  | 74, _, _ => fun _ _ _ _ => rfl
  | 75, _, _ => fun _ _ _ _ => rfl
  | 76, _, _ => fun _ _ _ _ => rfl
  | 77, _, _ => fun _ _ _ _ => rfl
  | 78, _, _ => fun h => absurd (by decide +kernel) h
  | 79, _, _ => fun h => absurd (by decide +kernel) h
  | 80, _, _ => fun h => absurd (by decide +kernel) h
  | 81, _, _ => fun h => absurd (by decide +kernel) h
  | 82, _, _ => fun h => absurd (by decide +kernel) h
  | 83, _, _ => fun _ _ _ _ => rfl
  | 84, _, _ => fun h => absurd (by decide +kernel) h
  | 85, _, _ => fun h => absurd (by decide +kernel) h
  | 86, _, _ => fun _ _ _ _ => rfl
  | 87, _, _ => fun _ _ _ _ => rfl
  | 88, _, _ => fun _ _ _ _ => rfl
  | 89, _, _ => fun _ _ _ _ => rfl
  | 90, _, _ => fun _ _ _ _ => rfl
  | 91, _, _ => fun _ _ _ _ => rfl
  | 92, _, _ => fun _ _ _ _ => rfl
  | 93, _, _ => fun _ _ _ _ => rfl
  | 94, _, _ => fun h => absurd (by decide +kernel) h
  | 95, _, _ => fun h => absurd (by decide +kernel) h
  | 96, _, _ => fun _ _ _ _ => rfl
  | 97, _, _ => fun _ _ _ _ => rfl
  | 98, _, _ => fun _ _ _ _ => rfl
  | 99, _, _ => fun _ _ _ _ => rfl
  | 100, _, _ => fun _ _ _ _ => rfl
  | 101, _, _ => fun _ _ _ _ => rfl
  | 102, _, _ => fun _ _ _ _ => rfl
  | 103, _, _ => fun _ _ _ _ => rfl
  | 104, _, _ => fun _ _ _ _ => rfl
  | 105, _, _ => fun _ _ _ _ => rfl
  | 106, _, _ => fun _ _ _ _ => rfl
  | 107, _, _ => fun h => absurd (by decide +kernel) h
  | 108, _, _ => fun h => absurd (by decide +kernel) h
  | 109, _, _ => fun h => absurd (by decide +kernel) h
  | 110, _, _ => fun h => absurd (by decide +kernel) h
  | 111, _, _ => fun h => absurd (by decide +kernel) h
  | 112, _, _ => fun h => absurd (by decide +kernel) h
  | 113, _, _ => fun _ _ _ _ => rfl
  | 114, _, _ => fun _ _ _ _ => rfl
  | 115, _, _ => fun _ _ _ _ => rfl
  | 116, _, _ => fun _ _ _ _ => rfl
  | 117, _, _ => fun _ _ _ _ => rfl
  | 118, _, _ => fun _ _ _ _ => rfl
  | 119, _, _ => fun _ _ _ _ => rfl
  | 120, _, _ => fun _ _ _ _ => rfl
  | 121, _, _ => fun _ _ _ _ => rfl
  | 122, _, _ => fun _ _ _ _ => rfl
  | 123, _, _ => fun _ _ _ _ => rfl
  | 124, _, _ => fun _ _ _ _ => rfl
  | 125, _, _ => fun _ _ _ _ => rfl
  | 126, _, _ => fun _ _ _ _ => rfl
  | 127, _, _ => fun _ _ _ _ => rfl
  | 128, _, _ => fun _ _ _ _ => rfl
  | 129, _, _ => fun _ _ _ _ => rfl
  | 130, _, _ => fun _ _ _ _ => rfl
  | 131, _, _ => fun _ _ _ _ => rfl
  | 132, _, _ => fun _ _ _ _ => rfl
  | 133, _, _ => fun _ _ _ _ => rfl
  | 134, _, _ => fun _ _ _ _ => rfl
  | 135, _, _ => fun _ _ _ _ => rfl
  | 136, _, _ => fun _ _ _ _ => rfl
  | 137, _, _ => fun _ _ _ _ => rfl
  | 138, _, _ => fun _ _ _ _ => rfl
  | 139, _, _ => fun _ _ _ _ => rfl
  | 140, _, _ => fun _ _ _ _ => rfl
  | 141, _, _ => fun _ _ _ _ => rfl
  | 142, _, _ => fun _ _ _ _ => rfl
  | 143, _, _ => fun _ _ _ _ => rfl
  | 144, _, _ => fun _ _ _ _ => rfl
  | 145, _, _ => fun _ _ _ _ => rfl
  | 146, _, _ => fun _ _ _ _ => rfl
  | 147, _, _ => fun _ _ _ _ => rfl
  | 148, _, _ => fun _ _ _ _ => rfl
  | 149, _, _ => fun _ _ _ _ => rfl
  | 150, _, _ => fun _ _ _ _ => rfl
  | 151, _, _ => fun _ _ _ _ => rfl
  | 152, _, _ => fun _ _ _ _ => rfl
  | 153, _, _ => fun _ _ _ _ => rfl
  | 154, _, _ => fun _ _ _ _ => rfl
  | 155, _, _ => fun _ _ _ _ => rfl
  | 156, _, _ => fun _ _ _ _ => rfl
  | 157, _, _ => fun _ _ _ _ => rfl
  | 158, _, _ => fun _ _ _ _ => rfl
  | 159, _, _ => fun _ _ _ _ => rfl
  | 160, _, _ => fun _ _ _ _ => rfl
  | 161, _, _ => fun _ _ _ _ => rfl
  | 162, _, _ => fun _ _ _ _ => rfl
  | 163, _, _ => fun _ _ _ _ => rfl
  | 164, _, _ => fun _ _ _ _ => rfl
  | 165, _, _ => fun _ _ _ _ => rfl
  | 166, _, _ => fun _ _ _ _ => rfl
  | 167, _, _ => fun _ _ _ _ => rfl
  | 168, _, _ => fun _ _ _ _ => rfl
  | 169, _, _ => fun _ _ _ _ => rfl
  | 170, _, _ => fun _ _ _ _ => rfl
  | 171, _, _ => fun _ _ _ _ => rfl
  | 172, _, _ => fun _ _ _ _ => rfl
  | 173, _, _ => fun _ _ _ _ => rfl
  | 174, _, _ => fun _ _ _ _ => rfl
  | 175, _, _ => fun _ _ _ _ => rfl
  | 176, _, _ => fun _ _ _ _ => rfl
  | 177, _, _ => fun _ _ _ _ => rfl
  | 178, _, _ => fun h => absurd (by decide +kernel) h
  | 179, _, _ => fun h => absurd (by decide +kernel) h
  | 180, _, _ => fun _ _ _ _ => rfl
  | 181, _, _ => fun _ _ _ _ => rfl
  | 182, _, _ => fun _ _ _ _ => rfl
  | 183, _, _ => fun _ _ _ _ => rfl
  | 184, _, _ => fun _ _ _ _ => rfl
  | 185, _, _ => fun _ _ _ _ => rfl
  | 186, _, _ => fun _ _ _ _ => rfl
  | 187, _, _ => fun _ _ _ _ => rfl
  | 188, _, _ => fun _ _ _ _ => rfl
  | 189, _, _ => fun _ _ _ _ => rfl
  | 190, _, _ => fun _ _ _ _ => rfl
  | 191, _, _ => fun _ _ _ _ => rfl
  | 192, _, _ => fun _ _ _ _ => rfl
  | 193, _, _ => fun _ _ _ _ => rfl
  | 194, _, _ => fun _ _ _ _ => rfl
  | 195, _, _ => fun _ _ _ _ => rfl
  | 196, _, _ => fun _ _ _ _ => rfl
  | 197, _, _ => fun _ _ _ _ => rfl
  | 198, _, _ => fun _ _ _ _ => rfl
  | 199, _, _ => fun _ _ _ _ => rfl
  | 200, _, _ => fun _ _ _ _ => rfl
  | 201, _, _ => fun _ _ _ _ => rfl
  | 202, _, _ => fun _ _ _ _ => rfl
  | 203, _, _ => fun _ _ _ _ => rfl
  | 204, _, _ => fun _ _ _ _ => rfl
  | 205, _, _ => fun _ _ _ _ => rfl
  | 206, _, _ => fun _ _ _ _ => rfl
  | 207, _, _ => fun _ _ _ _ => rfl
  | 208, _, _ => fun _ _ _ _ => rfl
  | 209, _, _ => fun _ _ _ _ => rfl
  | 210, _, _ => fun _ _ _ _ => rfl
  | 211, _, _ => fun _ _ _ _ => rfl
  | 212, _, _ => fun _ _ _ _ => rfl
  | 213, _, _ => fun _ _ _ _ => rfl
  | 214, _, _ => fun _ _ _ _ => rfl
  | 215, _, _ => fun _ _ _ _ => rfl
  | 216, _, _ => fun _ _ _ _ => rfl
  | 217, _, _ => fun _ _ _ _ => rfl
  | 218, _, _ => fun _ _ _ _ => rfl
  | 219, _, _ => fun _ _ _ _ => rfl
  | 220, _, _ => fun _ _ _ _ => rfl
  | 221, _, _ => fun _ _ _ _ => rfl
  | 222, _, _ => fun _ _ _ _ => rfl
  | 223, _, _ => fun _ _ _ _ => rfl
  | 224, _, _ => fun _ _ _ _ => rfl
  | 225, _, _ => fun _ _ _ _ => rfl
  | 226, _, _ => fun _ _ _ _ => rfl
  | 227, _, _ => fun _ _ _ _ => rfl
  | 228, _, _ => fun _ _ _ _ => rfl
  | 229, _, _ => fun _ _ _ _ => rfl
  | 230, _, _ => fun _ _ _ _ => rfl
  | 231, _, _ => fun _ _ _ _ => rfl
  | 232, _, _ => fun _ _ _ _ => rfl
  | 233, _, _ => fun _ _ _ _ => rfl
  | 234, _, _ => fun _ _ _ _ => rfl
  | 235, _, _ => fun _ _ _ _ => rfl
  | 236, _, _ => fun _ _ _ _ => rfl
  | 237, _, _ => fun _ _ _ _ => rfl
  | 238, _, _ => fun _ _ _ _ => rfl
  | 239, _, _ => fun _ _ _ _ => rfl
  | 240, _, _ => fun _ _ _ _ => rfl
  | 241, _, _ => fun _ _ _ _ => rfl
  | 242, _, _ => fun _ _ _ _ => rfl
  | 243, _, _ => fun _ _ _ _ => rfl
  | 244, _, _ => fun _ _ _ _ => rfl
  | 245, _, _ => fun _ _ _ _ => rfl
  | 246, _, _ => fun _ _ _ _ => rfl
  | 247, _, _ => fun _ _ _ _ => rfl
  | 248, _, _ => fun _ _ _ _ => rfl
  | 249, _, _ => fun _ _ _ _ => rfl
  | 250, _, _ => fun _ _ _ _ => rfl
  | 251, _, _ => fun _ _ _ _ => rfl
  | 252, _, _ => fun _ _ _ _ => rfl
  | 253, _, _ => fun _ _ _ _ => rfl
  | 254, _, _ => fun _ _ _ _ => rfl
  | 255, _, _ => fun _ _ _ _ => rfl
  | 256, _, _ => fun _ _ _ _ => rfl
  | 257, _, _ => fun _ _ _ _ => rfl
  | 258, _, _ => fun _ _ _ _ => rfl
  | 259, _, _ => fun _ _ _ _ => rfl
  | 260, _, _ => fun _ _ _ _ => rfl
  | 261, _, _ => fun _ _ _ _ => rfl
  | 262, _, _ => fun _ _ _ _ => rfl
  | 263, _, _ => fun _ _ _ _ => rfl
  | 264, _, _ => fun h => absurd (by decide +kernel) h
  | 265, _, _ => fun h => absurd (by decide +kernel) h
  | 266, _, _ => fun h => absurd (by decide +kernel) h
  | 267, _, _ => fun h => absurd (by decide +kernel) h
  | 268, _, _ => fun _ _ _ _ => rfl
  | 269, _, _ => fun _ _ _ _ => rfl
  | 270, _, _ => fun _ _ _ _ => rfl
  | 271, _, _ => fun _ _ _ _ => rfl
  | 272, _, _ => fun _ _ _ _ => rfl
  | 273, _, _ => fun _ _ _ _ => rfl
  | 274, _, _ => fun _ _ _ _ => rfl
  | 275, _, _ => fun _ _ _ _ => rfl
  | 276, _, _ => fun _ _ _ _ => rfl
  | 277, _, _ => fun _ _ _ _ => rfl
  | 278, _, _ => fun _ _ _ _ => rfl
  | 279, _, _ => fun _ _ _ _ => rfl
  | 280, _, _ => fun _ _ _ _ => rfl
  | 281, _, _ => fun _ _ _ _ => rfl
  | 282, _, _ => fun _ _ _ _ => rfl
  | 283, _, _ => fun _ _ _ _ => rfl
  | 284, _, _ => fun _ _ _ _ => rfl
  | 285, _, _ => fun _ _ _ _ => rfl
  | 286, _, _ => fun _ _ _ _ => rfl
  | 287, _, _ => fun _ _ _ _ => rfl
  | 288, _, _ => fun _ _ _ _ => rfl
  | 289, _, _ => fun _ _ _ _ => rfl
  | 290, _, _ => fun _ _ _ _ => rfl
  | 291, _, _ => fun _ _ _ _ => rfl
  | 0, h, _ => absurd h (by omega)
  | n + 292, _, h => absurd h (by omega)

/-- Only the rules of `DefinedValue` write the reference. -/
theorem action_defined (r : Nat) (h1 : 1 ≤ r) (h2 : r ≤ 291) : KeepsDefined R D r :=
  match r, h1, h2 with
  | 1, _, _ => fun _ _ _ _ => rfl
  | 2, _, _ => fun _ _ _ _ => rfl
  | 3, _, _ => fun _ _ _ _ => rfl
  | 4, _, _ => fun _ _ _ _ => rfl
  | 5, _, _ => fun _ _ _ _ => rfl
  | 6, _, _ => fun _ _ _ _ => rfl
  | 7, _, _ => fun _ _ _ _ => rfl
  | 8, _, _ => fun _ _ _ _ => rfl
  | 9, _, _ => fun _ _ _ _ => rfl
  | 10, _, _ => fun _ _ _ _ => rfl
  | 11, _, _ => fun _ _ _ _ => rfl
  | 12, _, _ => fun _ _ _ _ => rfl
  | 13, _, _ => fun _ _ _ _ => rfl
  | 14, _, _ => fun _ _ _ _ => rfl
  | 15, _, _ => fun _ _ _ _ => rfl
  | 16, _, _ => fun _ _ _ _ => rfl
  | 17, _, _ => fun _ _ _ _ => rfl
  | 18, _, _ => fun _ _ _ _ => rfl
  | 19, _, _ => fun _ _ _ _ => rfl
  | 20, _, _ => fun _ _ _ _ => rfl
  | 21, _, _ => fun _ _ _ _ => rfl
  | 22, _, _ => fun _ _ _ _ => rfl
  | 23, _, _ => fun _ _ _ _ => rfl
  | 24, _, _ => fun _ _ _ _ => rfl
  | 25, _, _ => fun _ _ _ _ => rfl
  | 26, _, _ => fun _ _ _ _ => rfl
  | 27, _, _ => fun _ _ _ _ => rfl
  | 28, _, _ => fun _ _ _ _ => rfl
  | 29, _, _ => fun _ _ _ _ => rfl
  | 30, _, _ => fun _ _ _ _ => rfl
  | 31, _, _ => fun _ _ _ _ => rfl
  | 32, _, _ => fun _ _ _ _ => rfl
  | 33, _, _ => fun _ _ _ _ => rfl
  | 34, _, _ => fun _ _ _ _ => rfl
  | 35, _, _ => fun _ _ _ _ => rfl
  | 36, _, _ => fun _ _ _ _ => rfl
  | 37, _, _ => fun _ _ _ _ => rfl
  | 38, _, _ => fun _ _ _ _ => rfl
  | 39, _, _ => fun _ _ _ _ => rfl
  | 40, _, _ => fun _ _ _ _ => rfl
  | 41, _, _ => fun _ _ _ _ => rfl
  | 42, _, _ => fun _ _ _ _ => rfl
  | 43, _, _ => fun _ _ _ _ => rfl
  | 44, _, _ => fun _ _ _ _ => rfl
  | 45, _, _ => fun _ _ _ _ => rfl
  | 46, _, _ => fun _ _ _ _ => rfl
  | 47, _, _ => fun _ _ _ _ => rfl
  | 48, _, _ => fun _ _ _ _ => rfl
  | 49, _, _ => fun _ _ _ _ => rfl
  | 50, _, _ => fun _ _ _ _ => rfl
  | 51, _, _ => fun _ _ _ _ => rfl
  | 52, _, _ => fun h => absurd (by decide +kernel) h
  | 53, _, _ => fun h => absurd (by decide +kernel) h
  | 54, _, _ => fun _ _ _ _ => rfl
  | 55, _, _ => fun _ _ _ _ => rfl
  | 56, _, _ => fun _ _ _ _ => rfl
  | 57, _, _ => fun _ _ _ _ => rfl
  | 58, _, _ => fun _ _ _ _ => rfl
  | 59, _, _ => fun _ _ _ _ => rfl
  | 60, _, _ => fun _ _ _ _ => rfl
  | 61, _, _ => fun _ _ _ _ => rfl
  | 62, _, _ => fun _ _ _ _ => rfl
  | 63, _, _ => fun _ _ _ _ => rfl
  | 64, _, _ => fun _ _ _ _ => rfl
  | 65, _, _ => fun _ _ _ _ => rfl
  | 66, _, _ => fun _ _ _ _ => rfl
  | 67, _, _ => fun _ _ _ _ => rfl
  | 68, _, _ => fun _ _ _ _ => rfl
  | 69, _, _ => fun _ _ _ _ => rfl
  | 70, _, _ => fun _ _ _ _ => rfl
  | 71, _, _ => fun _ _ _ _ => rfl
  | 72, _, _ => fun _ _ _ _ => rfl
  | 73, _, _ => fun _ _ _ _ => rfl
  | 74, _, _ => fun _ _ _ _ => rfl
  | 75, _, _ => fun _ _ _ _ => rfl
  | 76, _, _ => fun _ _ _ _ => rfl
  | 77, _, _ => fun _ _ _ _ => rfl
  | 78, _, _ => fun _ _ _ _ => rfl
  | 79, _, _ => fun _ _ _ _ => rfl
  | 80, _, _ => fun _ _ _ _ => rfl
  | 81, _, _ => fun _ _ _ _ => rfl
  | 82, _, _ => fun _ _ _ _ => rfl
  | 83, _, _ => fun _ _ _ _ => rfl
  | 84, _, _ => fun _ _ _ _ => rfl
  | 85, _, _ => fun _ _ _ _ => rfl
  | 86, _, _ => fun _ _ _ _ => rfl
  | 87, _, _ => fun _ _ _ _ => rfl
  | 88, _, _ => fun _ _ _ _ => rfl
  | 89, _, _ => fun _ _ _ _ => rfl
  | 90, _, _ => fun _ _ _ _ => rfl
  | 91, _, _ => fun _ _ _ _ => rfl
  | 92, _, _ => fun _ _ _ _ => rfl
  | 93, _, _ => fun _ _ _ _ => rfl
  | 94, _, _ => fun _ _ _ _ => rfl
  | 95, _, _ => fun _ _ _ _ => rfl
  | 96, _, _ => fun _ _ _ _ => rfl
  | 97, _, _ => fun _ _ _ _ => rfl
  | 98, _, _ => fun _ _ _ _ => rfl
  | 99, _, _ => fun _ _ _ _ => rfl
  | 100, _, _ => fun _ _ _ _ => rfl
  | 101, _, _ => fun _ _ _ _ => rfl
  | 102, _, _ => fun _ _ _ _ => rfl
  | 103, _, _ => fun _ _ _ _ => rfl
  | 104, _, _ => fun _ _ _ _ => rfl
  | 105, _, _ => fun _ _ _ _ => rfl
  | 106, _, _ => fun _ _ _ _ => rfl
  | 107, _, _ => fun _ _ _ _ => rfl
  | 108, _, _ => fun _ _ _ _ => rfl
  | 109, _, _ => fun _ _ _ _ => rfl
  | 110, _, _ => fun _ _ _ _ => rfl
  | 111, _, _ => fun _ _ _ _ => rfl
  | 112, _, _ => fun _ _ _ _ => rfl
  | 113, _, _ => fun _ _ _ _ => rfl
  | 114, _, _ => fun _ _ _ _ => rfl
  | 115, _, _ => fun _ _ _ _ => rfl
  | 116, _, _ => fun _ _ _ _ => rfl
  | 117, _, _ => fun _ _ _ _ => rfl
  | 118, _, _ => fun _ _ _ _ => rfl
  | 119, _, _ => fun _ _ _ _ => rfl
  | 120, _, _ => fun _ _ _ _ => rfl
  | 121, _, _ => fun _ _ _ _ => rfl
  | 122, _, _ => fun _ _ _ _ => rfl
  | 123, _, _ => fun _ _ _ _ => rfl
  | 124, _, _ => fun _ _ _ _ => rfl
  | 125, _, _ => fun _ _ _ _ => rfl
  | 126, _, _ => fun _ _ _ _ => rfl
  | 127, _, _ => fun _ _ _ _ => rfl
  | 128, _, _ => fun _ _ _ _ => rfl
  | 129, _, _ => fun _ _ _ _ => rfl
  | 130, _, _ => fun _ _ _ _ => rfl
  | 131, _, _ => fun _ _ _ _ => rfl
  | 132, _, _ => fun _ _ _ _ => rfl
  | 133, _, _ => fun _ _ _ _ => rfl
  | 134, _, _ => fun _ _ _ _ => rfl
  | 135, _, _ => fun _ _ _ _ => rfl
  | 136, _, _ => fun _ _ _ _ => rfl
  | 137, _, _ => fun _ _ _ _ => rfl
  | 138, _, _ => fun _ _ _ _ => rfl
  | 139, _, _ => fun _ _ _ _ => rfl
  | 140, _, _ => fun _ _ _ _ => rfl
  | 141, _, _ => fun _ _ _ _ => rfl
  | 142, _, _ => fun _ _ _ _ => rfl
  | 143, _, _ => fun _ _ _ _ => rfl
  | 144, _, _ => fun _ _ _ _ => rfl
  | 145, _, _ => fun _ _ _ _ => rfl
  | 146, _, _ => fun _ _ _ _ => rfl
  | 147, _, _ => fun _ _ _ _ => rfl
  | 148, _, _ => fun _ _ _ _ => rfl
  | 149, _, _ => fun _ _ _ _ => rfl
  | 150, _, _ => fun _ _ _ _ => rfl
  | 151, _, _ => fun _ _ _ _ => rfl
  | 152, _, _ => fun _ _ _ _ => rfl
  | 153, _, _ => fun _ _ _ _ => rfl
  | 154, _, _ => fun _ _ _ _ => rfl
  | 155, _, _ => fun _ _ _ _ => rfl
  | 156, _, _ => fun _ _ _ _ => rfl
  | 157, _, _ => fun _ _ _ _ => rfl
  | 158, _, _ => fun _ _ _ _ => rfl
  | 159, _, _ => fun _ _ _ _ => rfl
  | 160, _, _ => fun _ _ _ _ => rfl
  | 161, _, _ => fun _ _ _ _ => rfl
  | 162, _, _ => fun _ _ _ _ => rfl
  | 163, _, _ => fun _ _ _ _ => rfl
  | 164, _, _ => fun _ _ _ _ => rfl
  | 165, _, _ => fun _ _ _ _ => rfl
  | 166, _, _ => fun _ _ _ _ => rfl
  | 167, _, _ => fun _ _ _ _ => rfl
  | 168, _, _ => fun _ _ _ _ => rfl
  | 169, _, _ => fun _ _ _ _ => rfl
  | 170, _, _ => fun _ _ _ _ => rfl
  | 171, _, _ => fun _ _ _ _ => rfl
  | 172, _, _ => fun _ _ _ _ => rfl
  | 173, _, _ => fun _ _ _ _ => rfl
  | 174, _, _ => fun _ _ _ _ => rfl
  | 175, _, _ => fun _ _ _ _ => rfl
  | 176, _, _ => fun _ _ _ _ => rfl
  | 177, _, _ => fun _ _ _ _ => rfl
  | 178, _, _ => fun _ _ _ _ => rfl
  | 179, _, _ => fun _ _ _ _ => rfl
  | 180, _, _ => fun _ _ _ _ => rfl
  | 181, _, _ => fun _ _ _ _ => rfl
  | 182, _, _ => fun _ _ _ _ => rfl
  | 183, _, _ => fun _ _ _ _ => rfl
  | 184, _, _ => fun _ _ _ _ => rfl
  | 185, _, _ => fun _ _ _ _ => rfl
  | 186, _, _ => fun _ _ _ _ => rfl
  | 187, _, _ => fun _ _ _ _ => rfl
  | 188, _, _ => fun _ _ _ _ => rfl
  | 189, _, _ => fun _ _ _ _ => rfl
  | 190, _, _ => fun _ _ _ _ => rfl
  | 191, _, _ => fun _ _ _ _ => rfl
  | 192, _, _ => fun _ _ _ _ => rfl
  | 193, _, _ => fun _ _ _ _ => rfl
  | 194, _, _ => fun _ _ _ _ => rfl
  | 195, _, _ => fun _ _ _ _ => rfl
  | 196, _, _ => fun _ _ _ _ => rfl
  | 197, _, _ => fun _ _ _ _ => rfl
  | 198, _, _ => fun _ _ _ _ => rfl
  | 199, _, _ => fun _ _ _ _ => rfl
  | 200, _, _ => fun _ _ _ _ => rfl
  | 201, _, _ => fun _ _ _ _ => rfl
  | 202, _, _ => fun _ _ _ _ => rfl
  | 203, _, _ => fun _ _ _ _ => rfl
  | 204, _, _ => fun _ _ _ _ => rfl
  | 205, _, _ => fun _ _ _ _ => rfl
  | 206, _, _ => fun _ _ _ _ => rfl
  | 207, _, _ => fun _ _ _ _ => rfl
  | 208, _, _ => fun _ _ _ _ => rfl
  | 209, _, _ => fun _ _ _ _ => rfl
  | 210, _, _ => fun _ _ _ _ => rfl
  | 211, _, _ => fun _ _ _ _ => rfl
  | 212, _, _ => fun _ _ _ _ => rfl
  | 213, _, _ => fun _ _ _ _ => rfl
  | 214, _, _ => fun _ _ _ _ => rfl
  | 215, _, _ => fun _ _ _ _ => rfl
  | 216, _, _ => fun _ _ _ _ => rfl
  | 217, _, _ => fun _ _ _ _ => rfl
  | 218, _, _ => fun _ _ _ _ => rfl
  | 219, _, _ => fun _ _ _ _ => rfl
  | 220, _, _ => fun _ _ _ _ => rfl
  | 221, _, _ => fun _ _ _ _ => rfl
  | 222, _, _ => fun _ _ _ _ => rfl
  | 223, _, _ => fun _ _ _ _ => rfl
  | 224, _, _ => fun _ _ _ _ => rfl
  | 225, _, _ => fun _ _ _ _ => rfl
  | 226, _, _ => fun _ _ _ _ => rfl
  | 227, _, _ => fun _ _ _ _ => rfl
  | 228, _, _ => fun _ _ _ _ => rfl
  | 229, _, _ => fun _ _ _ _ => rfl
  | 230, _, _ => fun _ _ _ _ => rfl
  | 231, _, _ => fun _ _ _ _ => rfl
  | 232, _, _ => fun _ _ _ _ => rfl
  | 233, _, _ => fun _ _ _ _ => rfl
  | 234, _, _ => fun _ _ _ _ => rfl
  | 235, _, _ => fun _ _ _ _ => rfl
  | 236, _, _ => fun _ _ _ _ => rfl
  | 237, _, _ => fun _ _ _ _ => rfl
  | 238, _, _ => fun _ _ _ _ => rfl
  | 239, _, _ => fun _ _ _ _ => rfl
  | 240, _, _ => fun _ _ _ _ => rfl
  | 241, _, _ => fun _ _ _ _ => rfl
  | 242, _, _ => fun _ _ _ _ => rfl
  | 243, _, _ => fun _ _ _ _ => rfl
  | 244, _, _ => fun _ _ _ _ => rfl
  | 245, _, _ => fun _ _ _ _ => rfl
  | 246, _, _ => fun _ _ _ _ => rfl
  | 247, _, _ => fun _ _ _ _ => rfl
  | 248, _, _ => fun _ _ _ _ => rfl
  | 249, _, _ => fun _ _ _ _ => rfl
  | 250, _, _ => fun _ _ _ _ => rfl
  | 251, _, _ => fun _ _ _ _ => rfl
  | 252, _, _ => fun _ _ _ _ => rfl
  | 253, _, _ => fun _ _ _ _ => rfl
  | 254, _, _ => fun _ _ _ _ => rfl
  | 255, _, _ => fun _ _ _ _ => rfl
  | 256, _, _ => fun _ _ _ _ => rfl
  | 257, _, _ => fun _ _ _ _ => rfl
  | 258, _, _ => fun _ _ _ _ => rfl
  | 259, _, _ => fun _ _ _ _ => rfl
  | 260, _, _ => fun _ _ _ _ => rfl
  | 261, _, _ => fun _ _ _ _ => rfl
  | 262, _, _ => fun _ _ _ _ => rfl
  | 263, _, _ => fun _ _ _ _ => rfl
  | 264, _, _ => fun _ _ _ _ => rfl
  | 265, _, _ => fun _ _ _ _ => rfl
  | 266, _, _ => fun _ _ _ _ => rfl
  | 267, _, _ => fun _ _ _ _ => rfl
  | 268, _, _ => fun _ _ _ _ => rfl
  | 269, _, _ => fun _ _ _ _ => rfl
  | 270, _, _ => fun _ _ _ _ => rfl
  | 271, _, _ => fun _ _ _ _ => rfl
  | 272, _, _ => fun _ _ _ _ => rfl
  | 273, _, _ => fun _ _ _ _ => rfl
  | 274, _, _ => fun _ _ _ _ => rfl
  | 275, _, _ => fun _ _ _ _ => rfl
  | 276, _, _ => fun _ _ _ _ => rfl
  | 277, _, _ => fun _ _ _ _ => rfl
  | 278, _, _ => fun _ _ _ _ => rfl
  | 279, _, _ => fun _ _ _ _ => rfl
  | 280, _, _ => fun _ _ _ _ => rfl
  | 281, _, _ => fun _ _ _ _ => rfl
  | 282, _, _ => fun _ _ _ _ => rfl
  | 283, _, _ => fun _ _ _ _ => rfl
  | 284, _, _ => fun _ _ _ _ => rfl
  | 285, _, _ => fun _ _ _ _ => rfl
  | 286, _, _ => fun _ _ _ _ => rfl
  | 287, _, _ => fun _ _ _ _ => rfl
  | 288, _, _ => fun _ _ _ _ => rfl
  | 289, _, _ => fun _ _ _ _ => rfl
  | 290, _, _ => fun _ _ _ _ => rfl
  | 291, _, _ => fun _ _ _ _ => rfl
  | 0, h, _ => absurd h (by omega)
  | n + 292, _, h => absurd h (by omega)

end Asn1go.LR
