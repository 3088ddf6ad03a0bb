#!/usr/bin/env python3
"""Writes lean/Verif/Proofs/LR/Keep.lean: which rules write the fields `value` and `definedValue`.
Run from /verif/lean."""
import re

src = open('Verif/Spec/Grammar.lean').read()
lhs = {int(m.group(2)): m.group(1) for m in re.finditer(r'^  \(NT\.«(\w+)», .*-- (\d+)$', src, re.M)}
assert sorted(lhs) == list(range(1, 292)), len(lhs)
V = {"BuiltinValue", "Value", "IntegerValue", "RealValue", "BooleanValue", "NumericRealValue", "SpecialRealValue",
     "LowerEndValue", "UpperEndValue", "ClassNumber", "AssignedIdentifier"}
out = '''import Verif.Spec.Exact

/-! Which rules write the two fields pointers are made to.  Generated by tools/gen_keep.py. -/

namespace Asn1go.LR

open Asn1go Spec

variable {R D : Type}

/-- Rule `r` leaves the value alone unless its left-hand side has the type `<Value>`. -/
def KeepsValue (R D : Type) (r : Nat) : Prop := lhsOf r ∉ valueNTs →
  ∀ (p : Pointers R D) (d : Nat → SymType R D) (v : SymType R D), (action r p d v).value = v.value

/-- Rule `r` leaves the reference alone unless its left-hand side is `DefinedValue`. -/
def KeepsDefined (R D : Type) (r : Nat) : Prop := lhsOf r ≠ NT.«DefinedValue» →
  ∀ (p : Pointers R D) (d : Nat → SymType R D) (v : SymType R D), (action r p d v).definedValue = v.definedValue

/-- Only rules for a nonterminal of type `<Value>` write the value. -/
theorem action_value (r : Nat) (h1 : 1 ≤ r) (h2 : r ≤ 291) : KeepsValue R D r :=
  match r, h1, h2 with
'''
for i in range(1, 292):
    out += f"  | {i}, _, _ => " + ("fun h => absurd (by decide +kernel) h\n" if lhs[i] in V else "fun _ _ _ _ => rfl\n")
END = '''  | 0, h, _ => absurd h (by omega)
  | n + 292, _, h => absurd h (by omega)
'''
out += END
out += '''
/-- Only the rules of `DefinedValue` write the reference. -/
theorem action_defined (r : Nat) (h1 : 1 ≤ r) (h2 : r ≤ 291) : KeepsDefined R D r :=
  match r, h1, h2 with
'''
for i in range(1, 292):
    out += f"  | {i}, _, _ => " + ("fun h => absurd (by decide +kernel) h\n" if lhs[i] == "DefinedValue" else "fun _ _ _ _ => rfl\n")
out += END
out += "\nend Asn1go.LR\n"
open('Verif/Proofs/LR/Keep.lean', 'w').write(out)
