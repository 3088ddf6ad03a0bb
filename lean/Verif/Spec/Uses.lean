import Verif.Spec.Tree

/-! Which rules a derivation tree uses. -/

namespace Asn1go.Spec

mutual

/-- Whether a tree uses a rule. -/
def Tree.uses (r : Nat) : Tree → Bool
  | .leaf _ _ => false
  | .node r' kids => r' == r || Tree.usesAny r kids

/-- Whether one of some trees uses a rule. -/
def Tree.usesAny (r : Nat) : List Tree → Bool
  | [] => false
  | t :: l => t.uses r || Tree.usesAny r l

end

end Asn1go.Spec
