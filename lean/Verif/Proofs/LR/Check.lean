import Verif.Proofs.LR.Parts
import Verif.Model.Parser
import Verif.Spec.Grammar
import Verif.Proofs.LR.Cert

/-! Checks of the parser tables that are evaluated by the kernel over all states, tokens and rules. -/

namespace Asn1go.LR

open Asn1go Spec

/-- The predecessors of a state. -/
def preds (s : Nat) : List Nat := predsT.get s

/-- The rank of a state. -/
def rank (s : Nat) : Nat := rankT.get s

/-- The symbol by which a state is entered: a token number, or minus a nonterminal number. -/
def sym (s : Nat) : Int := (Tab.yyChk.get? s).getD (-1000)

/-- A grammar symbol in the numbering of `sym`. -/
def symInt : Sym → Int
  | .t c => c - 57342
  | .n k => - (k : Int)

/-- Weight of a symbol in the potential function. -/
def weight (x : Int) : Nat := if 0 < x then 17 else if (-x).toNat ∈ nullableNT then 0 else 17

/-- The shift part of `decideStep`. -/
def shiftOf (s : Nat) (t : Int) : Except Abort (Option Nat) := do
  let n ← Tab.yyPact.at s
  if n ≤ yyFlag then pure none
  else
    let n := n + t
    if n < 0 ∨ yyLast ≤ n then pure none
    else
      let a ← Tab.yyAct.at n
      let c ← Tab.yyChk.at a
      if c = t then do
        let st ← toState a
        pure (some st)
      else pure none

/-- All results the exception table can give for a state, from its entry on. -/
def excaValues : List Int → Except Abort (List Int)
  | a :: b :: l => if a < 0 then pure [b] else do
    let r ← excaValues l
    pure (b :: r)
  | _ => .error .panic

/-- All default decisions a state can take. -/
def defaultsOf (s : Nat) : Except Abort (List Int) := do
  let n ← Tab.yyDef.at s
  if n = -2 then
    let l ← excaFind s Tab.yyExca.toList
    excaValues l
  else pure [n]

/-- Rule `r` (numbered from 1). -/
def ruleOf (r : Nat) : Option (Nat × List Sym) := rules[r - 1]?

/-- Walk back along a right-hand side (reversed); all states met must be entered by the symbol met. -/
def walk : List Int → List Nat → Option (List Nat)
  | [], S => some S
  | X :: l, S => if S.all (fun s => sym s == X) then walk l ((S.flatMap preds).eraseDups) else none

/-- Check of a reduction by `r` in state `s`. -/
def checkReduce (s r : Nat) : Bool :=
  match ruleOf r, Tab.yyR1.at r, Tab.yyR2.at r with
  | some (lhs, rhs), .ok nt, .ok k =>
    1 ≤ r && nt == (lhs : Int) && k == (rhs.length : Int) && 1 ≤ lhs &&
    match walk (rhs.map symInt).reverse [s] with
    | none => false
    | some B => B.all fun b =>
      match gotoState nt b with
      | .error _ => false
      | .ok g => 0 < g && g < 432 && sym g == -(lhs : Int) && (preds g).contains b &&
          weight (-(lhs : Int)) + rank g + 1 ≤ ((rhs.map symInt).map weight).sum + rank s &&
          (g != 1 || r == 1)
  | _, _, _ => false

/-- Check of all decisions of a state. -/
def checkState (s : Nat) : Bool :=
  ((List.range 128).all fun t =>
    match shiftOf s ((t : Int) + 1) with
    | .error _ => false
    | .ok none => true
    | .ok (some st) => 0 < st && st < 432 && sym st == (t : Int) + 1 && (preds st).contains s && 3 ≤ t && st != 1) &&
  (match defaultsOf s with
    | .error _ => false
    | .ok l => l.all fun n => if n < 0 then s == 1 else if n = 0 then true else checkReduce s n.toNat) &&
  (match Tab.yyPact.at s with
    | .error _ => false
    | .ok n =>
      let n := n + yyErrCode
      if 0 ≤ n ∧ n < yyLast then
        match Tab.yyAct.at n with
        | .error _ => false
        | .ok a => match Tab.yyChk.at a with
          | .error _ => false
          | .ok c => c != yyErrCode
      else true) &&
  rank s ≤ 16

theorem checkPart_0 : part checkState 0 = true := by decide +kernel
theorem checkPart_1 : part checkState 1 = true := by decide +kernel
theorem checkPart_2 : part checkState 2 = true := by decide +kernel
theorem checkPart_3 : part checkState 3 = true := by decide +kernel
theorem checkPart_4 : part checkState 4 = true := by decide +kernel
theorem checkPart_5 : part checkState 5 = true := by decide +kernel
theorem checkPart_6 : part checkState 6 = true := by decide +kernel
theorem checkPart_7 : part checkState 7 = true := by decide +kernel
theorem checkPart_8 : part checkState 8 = true := by decide +kernel
theorem checkPart_9 : part checkState 9 = true := by decide +kernel
theorem checkPart_10 : part checkState 10 = true := by decide +kernel
theorem checkPart_11 : part checkState 11 = true := by decide +kernel

theorem checkStates : (List.range 432).all checkState = true :=
  all_of_parts checkPart_0 checkPart_1 checkPart_2 checkPart_3 checkPart_4 checkPart_5
    checkPart_6 checkPart_7 checkPart_8 checkPart_9 checkPart_10 checkPart_11

end Asn1go.LR
