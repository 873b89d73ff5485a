import Verif.Spec.Flow
/-! The stack that control flow recovery may need, in terms of numbers that are read off a function. -/

namespace Magma.Spec
variable {X : Type}

/-- The block starts a selection or a loop. -/
def starts (b : BasicBlock X) : Bool :=
  match endOf b with
  | .gotoLoop _ _ _ => true
  | .chooseSelection _ _ _ _ _ => true
  | _ => false

/-- How many blocks start a selection or a loop -/
def headers (blocks : List (BasicBlock X)) : Nat := blocks.countP starts

/-- One frame, and for `0`, `1`, … up to `n` constructs around, frames for all blocks but one and the blocks
where those constructs end -/
def deepest (blocks n : Nat) : Nat := (n + 1) * (blocks - 1) - n * (n + 1) / 2 + 1

end Magma.Spec
