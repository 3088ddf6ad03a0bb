import Verif.Proofs.LR.Parts
import Verif.Proofs.LR.Machine
import Verif.Proofs.LR.Items

/-! Checks of the items of all states, evaluated by the kernel. -/

namespace Asn1go.LR

open Asn1go Spec

/-- Items of a state. -/
def itemsOf (s : Nat) : List Item := itemsT.get s

/-- All members of the mask `a` are members of `b`. -/
def sub (a b : Nat) : Bool := a &&& b == a

/-- The state has an item with at least the given following tokens. -/
def hasItem (s r : Nat) (p : Place) (d mask : Nat) : Bool :=
  decide (s < 432) && (itemsOf s).any fun i => i.rule == r && i.place == p && i.dot == d && sub mask i.mask

/-- The bit of a token code. -/
def codeBit (c : Int) : Nat := (tokNo c).toNat

/-- Tokens that may start a list of symbols followed by a token of `mask`. -/
def firstSeq : List Sym → Nat → Nat
  | [], mask => mask
  | .t c :: _, _ => 2 ^ codeBit c
  | .n A :: l, mask =>
    let f := firstT.get A
    if f.testBit 0 then (f ^^^ 1) ||| firstSeq l mask else f

/-- The tokens before which a rule is not used. -/
def notBeforeMask (r : Nat) : Nat :=
  notBefore.foldr (fun e m => if e.1 == r then e.2.foldr (fun c m => m ||| 2 ^ codeBit c) m else m) 0

/-- A rule that is never used, or not at the place. -/
def excluded (r : Nat) (p : Place) : Bool := neverUsed.contains r || notThere.contains (r, p)

/-- Check of one item of a state. -/
def checkItem (s : Nat) (i : Item) : Bool :=
  match ruleOf i.rule with
  | none => false
  | some (_, rhs) =>
    i.dot ≤ rhs.length &&
    match rhs.drop i.dot with
    | [] => (List.range 129).all fun t => !i.mask.testBit t ||
      (match act s t with
        | .ok (.reduce r) => r == i.rule
        | _ => false)
    | .t c :: _ =>
      match act s (tokNo c) with
      | .ok (.shift n) => hasItem n i.rule i.place (i.dot + 1) i.mask
      | _ => false
    | .n A :: l =>
      (match gotoState A s with
        | .ok g => hasItem g i.rule i.place (i.dot + 1) i.mask
        | _ => false) &&
      let f := firstSeq l i.mask
      let p := i.place.child i.rule i.dot
      (rulesOfT.get A).all fun r => excluded r p ||
        (let f' := f ^^^ (f &&& notBeforeMask r)
         f' == 0 || hasItem s r p 0 f')

/-- Check of all items of a state. -/
def checkItemsOf (s : Nat) : Bool := (itemsOf s).all (checkItem s)

theorem itemPart_0 : part checkItemsOf 0 = true := by decide +kernel
theorem itemPart_1 : part checkItemsOf 1 = true := by decide +kernel
theorem itemPart_2 : part checkItemsOf 2 = true := by decide +kernel
theorem itemPart_3 : part checkItemsOf 3 = true := by decide +kernel
theorem itemPart_4 : part checkItemsOf 4 = true := by decide +kernel
theorem itemPart_5 : part checkItemsOf 5 = true := by decide +kernel
theorem itemPart_6 : part checkItemsOf 6 = true := by decide +kernel
theorem itemPart_7 : part checkItemsOf 7 = true := by decide +kernel
theorem itemPart_8 : part checkItemsOf 8 = true := by decide +kernel
theorem itemPart_9 : part checkItemsOf 9 = true := by decide +kernel
theorem itemPart_10 : part checkItemsOf 10 = true := by decide +kernel
theorem itemPart_11 : part checkItemsOf 11 = true := by decide +kernel

theorem checkItems : (List.range 432).all (fun s => (itemsOf s).all (checkItem s)) = true :=
  all_of_parts itemPart_0 itemPart_1 itemPart_2 itemPart_3 itemPart_4 itemPart_5
    itemPart_6 itemPart_7 itemPart_8 itemPart_9 itemPart_10 itemPart_11

/-- Check of a rule. -/
def checkRule (r : Nat) : Bool :=
  match ruleOf r with
  | none => false
  | some (lhs, rhs) => (rulesOfT.get lhs).contains r &&
    (neverUsed.contains r || sub (firstSeq rhs 1) (firstT.get lhs)) &&
    rhs.all fun
      | .t c => decide (57346 ≤ c ∧ c ≤ 57470)
      | .n _ => true

theorem checkRules : (List.range 291).all (fun r => checkRule (r + 1)) = true := by decide +kernel

theorem checkStart : hasItem 0 1 .other 0 2 = true := by decide +kernel

theorem checkAccept : gotoState NT.ModuleDefinition 0 = .ok 1 ∧ act 1 1 = .ok .accept := ⟨rfl, rfl⟩

end Asn1go.LR
