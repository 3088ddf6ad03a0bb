import Verif.Proofs.LR.Complete
import Verif.Proofs.LR.ReachCert
import Verif.Proofs.LR.Parts

/-! Checks of the reductions the tables prescribe, evaluated by the kernel. -/

namespace Asn1go.LR

open Asn1go Spec

/-- Tokens that can be ahead in a state. -/
def reachOf (s : Nat) : Nat := reachT.get s

/-- All tokens. -/
def allToks : Nat := 2 ^ 129 - 2

/-- Tokens that can be ahead after pushing a tree of class `c` on state `b` giving state `x`. -/
def mayMask (b x c : Nat) : Nat := (mayT.lookup (b, x, c)).getD 0

/-- States in which, with a dot ahead, the run is about to fail. -/
def doomStates : List Nat := [39, 41, 42, 43, 45, 59, 124]

/-- The dot. -/
def dotTok : Nat := codeBit Tok.DOT

/-- The run is about to fail. -/
def doomed (s t : Nat) : Bool := t == dotTok && doomStates.contains s

/-- The class of nodes of a rule. -/
def clsRule (r : Nat) : Nat := if r = 194 then 1 else if r = 196 then 2 else if r = 288 then 3 else 0

/-- Tokens of the mask not in `m`. -/
def without (a m : Nat) : Nat := a ^^^ (a &&& m)

/-- Tokens ahead with which a reduction by `r` in state `s` is as it should be. -/
def okMask (s r : Nat) : Nat :=
  match ruleOf r with
  | none => 0
  | some (lhs, rhs) =>
    if neverUsed.contains r then 0
    else match walk (rhs.map symInt).reverse [s] with
      | none => 0
      | some B =>
        let m := B.foldr (fun b m => match gotoState lhs b with
          | .ok g => (if clsRule r = 0 then reachOf g else reachOf g &&& mayMask b g (clsRule r)) &&& m
          | .error _ => 0) (without allToks (notBeforeMask r))
        if r = 192 then (preds s).foldr (fun b m => without m (mayMask b s 2)) m
        else if r = 131 then (preds s).foldr (fun b m => without m (mayMask b s 3)) m
        else if r = 187 then if (preds s).all (fun x => (preds x).all fun y => mayMask y x 4 == 0) then m else 0
        else if r = 190 then (preds s).foldr (fun x m => (preds x).foldr (fun b m =>
          if mayMask b x 1 &&& firstT.get NT.ObjIdComponentsList = 0 then m
          else match gotoState lhs b with
            | .ok g => mayMask b g 4 &&& m
            | .error _ => 0) m) m
        else m

/-- The tokens below `n` that can be ahead and with which the tables say to reduce by `r`. -/
def redMask (s r : Nat) : Nat → Nat
  | 0 => 0
  | t + 1 => (if (reachOf s).testBit t && !doomed s t then
      match act s t with
      | .ok (.reduce r') => if r' = r then 2 ^ t else 0
      | _ => 0
    else 0) ||| redMask s r t

/-- The rules by which a state can reduce. -/
def redRules (s : Nat) : List Nat :=
  match defaultsOf s with
  | .ok l => l.map Int.toNat
  | .error _ => []

/-- Check of a state. -/
def reachCheck (s : Nat) : Bool :=
  ((List.range 128).all fun t =>
    match act s ((t + 1 : Nat) : Int) with
    | .ok (.shift n) => !(reachOf s).testBit (t + 1) || reachOf n == allToks
    | .ok (.reduce r) => (redRules s).contains r
    | .ok _ => true
    | .error _ => false) &&
  ((redRules s).all fun r => sub (redMask s r 129) (okMask s r)) &&
  (!doomStates.contains s ||
    match act s dotTok with
    | .ok .error => true
    | .ok (.reduce r) =>
      (match ruleOf r with
        | none => false
        | some (lhs, rhs) =>
          match walk (rhs.map symInt).reverse [s] with
          | none => false
          | some B => B.all fun b =>
            match gotoState lhs b with
            | .ok g => doomStates.contains g
            | .error _ => false)
    | _ => false)

theorem reachPart_0 : part reachCheck 0 = true := by decide +kernel
theorem reachPart_1 : part reachCheck 1 = true := by decide +kernel
theorem reachPart_2 : part reachCheck 2 = true := by decide +kernel
theorem reachPart_3 : part reachCheck 3 = true := by decide +kernel
theorem reachPart_4 : part reachCheck 4 = true := by decide +kernel
theorem reachPart_5 : part reachCheck 5 = true := by decide +kernel
theorem reachPart_6 : part reachCheck 6 = true := by decide +kernel
theorem reachPart_7 : part reachCheck 7 = true := by decide +kernel
theorem reachPart_8 : part reachCheck 8 = true := by decide +kernel
theorem reachPart_9 : part reachCheck 9 = true := by decide +kernel
theorem reachPart_10 : part reachCheck 10 = true := by decide +kernel
theorem reachPart_11 : part reachCheck 11 = true := by decide +kernel

theorem reachChecks : (List.range 432).all reachCheck = true :=
  all_of_parts reachPart_0 reachPart_1 reachPart_2 reachPart_3 reachPart_4 reachPart_5
    reachPart_6 reachPart_7 reachPart_8 reachPart_9 reachPart_10 reachPart_11

end Asn1go.LR
