import Verif.Spec.Sequence
/-! A function in the middle of another. -/

namespace Magma.Spec

mutual
/-- Control flow with `chain` done after each block `x` -/
def insertChain (x : UInt32) (chain : ControlFlowChain) : ControlFlowChain → ControlFlowChain
  | .Atom id => if id.val = x then .Block (.Atom id :: itemsOf chain) else .Atom id
  | .Block chains => .Block (insertItems x chain chains)
  | .Selection id left right hint weights =>
    .Selection id (insertChain x chain left) (insertChain x chain right) hint weights
  | .Loop id inner hint weights => .Loop id (insertChain x chain inner) hint weights
  | .Break => .Break
  | .Continue => .Continue
/-- The same for the items of a block -/
def insertItems (x : UInt32) (chain : ControlFlowChain) : List ControlFlowChain → List ControlFlowChain
  | [] => []
  | c :: cs => itemsOf (insertChain x chain c) ++ insertItems x chain cs
end

/-- What becomes of the outcome of `find_control_flow` -/
def insertOutcome (x : UInt32) (chain : ControlFlowChain) : CF ControlFlowChain → CF ControlFlowChain
  | .ok c => .ok (insertChain x chain c)
  | .error e => .error e

variable {X : Type}

/-- The block goes on with block `start`. -/
def goTo (b : BasicBlock X) (start : UInt32) : BasicBlock X := { b with branch := .OpBranch ⟨⟨start⟩⟩ }

/-- The function `h` is the function `g` where block `b`, which goes on with block `t`, does the function `f` before
that. -/
structure IsInserted (f g h : FunctionDefinition X) (b : BasicBlock X) (t : UInt32) : Prop where
  goes : endOf b = .goto t
  blocks : ∃ pre post first more, g.blocks = pre ++ b :: post ∧ f.blocks = first :: more ∧
    h.blocks = (pre ++ goTo b (labelId first) :: post) ++ f.blocks.map (goOn t)
  separate : Separate f.blocks g.blocks

end Magma.Spec
