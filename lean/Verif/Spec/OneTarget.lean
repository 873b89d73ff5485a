import Verif.Spec.Settle
/-! Conditional branches with just one target. -/

namespace Magma.Spec
variable {X : Type}

/-- The blocks that end with a conditional branch whose two targets are the same -/
def oneTarget (blocks : List (BasicBlock X)) (x : UInt32) : Option Bool :=
  match blockOf blocks ⟨x⟩ with
  | none => none
  | some b =>
    match b.branch with
    | .OpBranchConditional op => if op.true_label = op.false_label then some true else none
    | _ => none

end Magma.Spec
